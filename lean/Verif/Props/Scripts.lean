import Verif.Spec.Scripts
import Verif.Lemmas.Source
import Verif.Props.Sessions
/-! Property C35: subscripts and superscripts. -/
namespace Verif
open Model Spec

/-! ### Primes -/

theorem addPrime_marks (ps : List (PrimeDirection × Nat)) (k : PrimeKind) :
    (addPrime ps k).reverse.flatMap (fun p => List.replicate p.2 p.1) =
      ps.reverse.flatMap (fun p => List.replicate p.2 p.1) ++ List.replicate k.count k.direction := by
  unfold addPrime
  cases ps with
  | nil => simp
  | cons p rest =>
    obtain ⟨d, n⟩ := p
    dsimp only
    by_cases h : d = k.direction
    · rw [if_pos h]
      subst h
      simp [List.flatMap_append, List.replicate_append_replicate]
    · rw [if_neg h]
      simp [List.flatMap_append]

theorem foldl_marks (ks : List PrimeKind) (ps : List (PrimeDirection × Nat)) :
    (ks.foldl addPrime ps).reverse.flatMap (fun p => List.replicate p.2 p.1) =
      ps.reverse.flatMap (fun p => List.replicate p.2 p.1) ++ ks.flatMap fun k => List.replicate k.count k.direction := by
  induction ks generalizing ps with
  | nil => simp
  | cons k ks ih => rw [List.foldl_cons, ih, addPrime_marks]; simp

theorem addPrime_pos {ps : List (PrimeDirection × Nat)} {k : PrimeKind} (h : ∀ p ∈ ps, 0 < p.2) :
    ∀ p ∈ addPrime ps k, 0 < p.2 := by
  have hk : 0 < k.count := by cases k <;> decide
  unfold addPrime
  cases ps with
  | nil => simpa using hk
  | cons p rest =>
    obtain ⟨d, n⟩ := p
    dsimp only
    split
    · intro p hp
      rcases List.mem_cons.1 hp with rfl | hp
      · show 0 < n + k.count
        omega
      · exact h p (List.mem_cons_of_mem _ hp)
    · intro p hp
      rcases List.mem_cons.1 hp with rfl | hp
      · exact hk
      · exact h p hp

theorem foldl_pos (ks : List PrimeKind) {ps : List (PrimeDirection × Nat)} (h : ∀ p ∈ ps, 0 < p.2) :
    ∀ p ∈ ks.foldl addPrime ps, 0 < p.2 := by
  induction ks generalizing ps with
  | nil => exact h
  | cons k ks ih => exact ih (addPrime_pos h)

theorem primeNodes_marks (d : PrimeDirection) {n : Nat} (hn : 0 < n) :
    (primeNodes d n).flatMap nodeMarks = List.replicate n d := by
  have hmany : ∀ (c : Node) (m : Nat), nodeMarks c = [d] →
      ((List.replicate m [primeSpace, c]).flatten).flatMap nodeMarks = List.replicate m d := by
    intro c m hc
    induction m with
    | zero => rfl
    | succ m ih =>
      rw [List.replicate_succ, List.flatten_cons, List.flatMap_append, ih, List.replicate_succ]
      rw [List.flatMap_cons, List.flatMap_cons, hc]
      rfl
  unfold primeNodes
  obtain ⟨m, rfl⟩ : ∃ m, n = m + 1 := ⟨n - 1, by omega⟩
  rw [Nat.add_sub_cancel]
  cases d with
  | forward =>
    dsimp only
    match m with
    | 0 => rfl
    | 1 => rfl
    | 2 => rfl
    | 3 => rfl
    | m + 4 =>
      have : (PrimeDirection.forward).ops[m + 4]? = none := by
        apply List.getElem?_eq_none
        show 4 ≤ m + 4
        omega
      rw [this]
      dsimp only
      rw [List.flatMap_cons, hmany _ _ rfl]
      rfl
  | reversed =>
    dsimp only
    match m with
    | 0 => rfl
    | 1 => rfl
    | 2 => rfl
    | m + 3 =>
      have : (PrimeDirection.reversed).ops[m + 3]? = none := by
        apply List.getElem?_eq_none
        show 3 ≤ m + 3
        omega
      rw [this]
      dsimp only
      rw [List.flatMap_cons, hmany _ _ rfl]
      rfl

/-- C35: the primes which are shown are those which are written, in the same order. -/
theorem C35_primes (ts : List Token) : (primesNodes ts).flatMap nodeMarks = ts.flatMap writtenMarks := by
  unfold primesNodes primeRuns
  have hw : ts.flatMap writtenMarks =
      (ts.filterMap primeOf).flatMap fun k => List.replicate k.count k.direction := by
    induction ts with
    | nil => rfl
    | cons t ts ih =>
      have ht : writtenMarks t = (primeOf t).toList.flatMap fun k => List.replicate k.count k.direction := by
        unfold writtenMarks primeOf
        cases t.unwrapMath with
        | prime k => cases k <;> rfl
        | _ => rfl
      rw [List.flatMap_cons, ih, ht, List.filterMap_cons]
      cases primeOf t <;> simp
  rw [hw]
  have h1 := foldl_marks (ts.filterMap primeOf) []
  have h2 := foldl_pos (ts.filterMap primeOf) (ps := []) (by simp)
  rw [← List.nil_append (List.flatMap _ (ts.filterMap primeOf))]
  rw [show ([] : List PrimeDirection) = ([] : List (PrimeDirection × Nat)).reverse.flatMap
    (fun p => List.replicate p.2 p.1) from rfl, ← h1]
  generalize (ts.filterMap primeOf).foldl addPrime [] = runs at h2
  rw [List.flatMap_assoc]
  have : ∀ rs : List (PrimeDirection × Nat), (∀ p ∈ rs, 0 < p.2) →
      (rs.flatMap fun p => (primeNodes p.1 p.2).flatMap nodeMarks) = rs.flatMap fun p => List.replicate p.2 p.1 := by
    intro rs
    induction rs with
    | nil => intro _; rfl
    | cons p rs ih =>
      intro h
      rw [List.flatMap_cons, List.flatMap_cons, ih fun q hq => h q (List.mem_cons_of_mem _ hq),
        primeNodes_marks _ (h p List.mem_cons_self)]
  exact this _ fun p hp => h2 p (List.mem_reverse.1 hp)

/-! ### Scripts -/

theorem rowOf_eq (ns : List Node) : Rec.rowUnlessSingle ns = rowOf ns := by
  cases ns with
  | nil => rfl
  | cons n ns => cases ns <;> rfl

/-- What a successful reading of scripts amounts to -/
theorem scripts_shown : (s : Scripts) → ∀ ⦃l l' : Loc⦄ ⦃b b' : Bounds⦄, s.denote l b = .ok (b', l') →
    l'.style = l.style ∧
    (b.sub.isSome → s.subs = [] ∧ b'.sub = b.sub) ∧ (b.sub = none → ShownSub l.style s.subs b'.sub) ∧
    (b.sup.isSome → s.sups = [] ∧ b'.sup = b.sup) ∧ (b.sup = none → ShownSup l.style s.sups b'.sup)
  | .nil => by
    intro l l' b b' h
    unfold Scripts.denote at h
    cases h
    exact ⟨rfl, fun _ => ⟨rfl, rfl⟩, fun h => by rw [h]; exact .none, fun _ => ⟨rfl, rfl⟩, fun h => by rw [h]; exact .none⟩
  | .sub a s => by
    intro l l' b b' h
    unfold Scripts.denote at h
    cases h1 : a.denote true { l with style := scriptStyle l.style } with
    | error e => rw [h1] at h; cases h
    | ok r =>
      rw [h1] at h
      cases h2 : addSub r.1 b with
      | error e => simp only [bind, Except.bind, h2] at h; cases h
      | ok b1 =>
        simp only [bind, Except.bind, h2] at h
        unfold addSub at h2
        obtain ⟨g1, g2, g3, g4, g5⟩ := scripts_shown s h
        cases hb : b.sub with
        | some n => rw [hb] at h2; cases h2
        | none =>
          rw [hb] at h2
          cases h2
          obtain ⟨k1, k2⟩ := g2 rfl
          refine ⟨g1, (by intro h; cases h), fun _ => ?_, g4, g5⟩
          show ShownSub l.style (a :: s.subs) b'.sub
          rw [k1, k2]
          exact .one (.mk rfl h1)
  | .sup a s => by
    intro l l' b b' h
    unfold Scripts.denote at h
    cases h1 : a.denote true { l with style := scriptStyle l.style } with
    | error e => rw [h1] at h; cases h
    | ok r =>
      rw [h1] at h
      cases h2 : addSup r.1 b with
      | error e => simp only [bind, Except.bind, h2] at h; cases h
      | ok b1 =>
        simp only [bind, Except.bind, h2] at h
        unfold addSup at h2
        obtain ⟨g1, g2, g3, g4, g5⟩ := scripts_shown s h
        cases hb : b.sup with
        | some n => rw [hb] at h2; cases h2
        | none =>
          rw [hb] at h2
          cases h2
          obtain ⟨k1, k2⟩ := g4 rfl
          refine ⟨g1, g2, g3, (by intro h; cases h), fun _ => ?_⟩
          show ShownSup l.style (([], some a) :: s.sups) b'.sup
          rw [k1, k2]
          exact .arg (.mk rfl h1)
  | .primes t ts s => by
    intro l l' b b' h
    unfold Scripts.denote at h
    cases h2 : addSup (Rec.rowUnlessSingle (primesNodes (t :: ts))) b with
    | error e => simp only [bind, Except.bind, h2] at h; cases h
    | ok b1 =>
      simp only [bind, Except.bind, h2] at h
      unfold addSup at h2
      obtain ⟨g1, g2, g3, g4, g5⟩ := scripts_shown s h
      cases hb : b.sup with
      | some n => rw [hb] at h2; cases h2
      | none =>
        rw [hb] at h2
        cases h2
        obtain ⟨k1, k2⟩ := g4 rfl
        refine ⟨g1, g2, g3, (by intro h; cases h), fun _ => ?_⟩
        show ShownSup l.style ((t :: ts, none) :: s.sups) b'.sup
        rw [k1, k2]
        dsimp only
        rw [rowOf_eq]
        exact .primes
  | .primesSup t ts a s => by
    intro l l' b b' h
    unfold Scripts.denote at h
    cases h1 : a.denote true { l with style := scriptStyle l.style } with
    | error e => rw [h1] at h; cases h
    | ok r =>
      rw [h1] at h
      cases h2 : addSup (Rec.rowUnlessSingle (primesNodes (t :: ts) ++ [r.1])) b with
      | error e => simp only [bind, Except.bind, h2] at h; cases h
      | ok b1 =>
        simp only [bind, Except.bind, h2] at h
        unfold addSup at h2
        obtain ⟨g1, g2, g3, g4, g5⟩ := scripts_shown s h
        cases hb : b.sup with
        | some n => rw [hb] at h2; cases h2
        | none =>
          rw [hb] at h2
          cases h2
          obtain ⟨k1, k2⟩ := g4 rfl
          refine ⟨g1, g2, g3, (by intro h; cases h), fun _ => ?_⟩
          show ShownSup l.style ((t :: ts, some a) :: s.sups) b'.sup
          rw [k1, k2]
          dsimp only
          rw [rowOf_eq]
          exact .both (.mk rfl h1)

/-- If the arguments are sound, scripts can be read unless there are two of a kind. -/
theorem scripts_decide : (s : Scripts) → (∀ a ∈ s.args, a.Sound) → ∀ (l : Loc) (b : Bounds),
    (s.subs.length + b.sub.isSome.toNat ≤ 1 ∧ s.sups.length + b.sup.isSome.toNat ≤ 1 → ∃ r, s.denote l b = .ok r) ∧
    (¬ (s.subs.length + b.sub.isSome.toNat ≤ 1 ∧ s.sups.length + b.sup.isSome.toNat ≤ 1) →
      s.denote l b = .error .duplicateSubOrSup)
  | .nil => by
    intro _ l b
    refine ⟨fun _ => ⟨_, by unfold Scripts.denote; rfl⟩, fun h => (h ?_).elim⟩
    simp only [Scripts.subs, Scripts.sups, List.length_nil, Nat.zero_add]
    cases b.sub <;> cases b.sup <;> simp
  | .sub a s => by
    intro ha l b
    obtain ⟨r, h1⟩ := ha a (by simp [Scripts.args, Scripts.subs, Scripts.sups]) true
      { l with style := scriptStyle l.style }
    have ih := scripts_decide s (fun a' h' => ha a' (by
      simp only [Scripts.args, Scripts.subs, Scripts.sups, List.mem_append, List.mem_cons] at h' ⊢
      rcases h' with h' | h' <;> simp [h']))
    unfold Scripts.denote
    rw [h1]
    simp only [bind, Except.bind, addSub, Scripts.subs, Scripts.sups, List.length_cons]
    cases hb : b.sub with
    | some n =>
      refine ⟨fun h => ?_, fun _ => rfl⟩
      simp only [Option.isSome_some, Bool.toNat_true] at h
      omega
    | none =>
      have := ih { r.2 with style := l.style } { b with sub := some r.1 }
      simp only [Option.isSome_some, Option.isSome_none, Bool.toNat_true, Bool.toNat_false, Nat.add_zero] at this ⊢
      exact this
  | .sup a s => by
    intro ha l b
    obtain ⟨r, h1⟩ := ha a (by simp [Scripts.args, Scripts.subs, Scripts.sups]) true
      { l with style := scriptStyle l.style }
    have ih := scripts_decide s (fun a' h' => ha a' (by
      simp only [Scripts.args, Scripts.subs, Scripts.sups, List.mem_append] at h' ⊢
      rcases h' with h' | h'
      · exact Or.inl h'
      · exact Or.inr (by simp only [List.filterMap_cons]; exact List.mem_cons_of_mem _ h')))
    unfold Scripts.denote
    rw [h1]
    simp only [bind, Except.bind, addSup, Scripts.subs, Scripts.sups, List.length_cons]
    cases hb : b.sup with
    | some n =>
      refine ⟨fun h => ?_, fun _ => rfl⟩
      simp only [Option.isSome_some, Bool.toNat_true] at h
      omega
    | none =>
      have := ih { r.2 with style := l.style } { b with sup := some r.1 }
      simp only [Option.isSome_some, Option.isSome_none, Bool.toNat_true, Bool.toNat_false, Nat.add_zero] at this ⊢
      exact this
  | .primes t ts s => by
    intro ha l b
    have ih := scripts_decide s (fun a' h' => ha a' (by
      simp only [Scripts.args, Scripts.subs, Scripts.sups, List.mem_append] at h' ⊢
      rcases h' with h' | h'
      · exact Or.inl h'
      · exact Or.inr (by simp only [List.filterMap_cons]; exact h')))
    unfold Scripts.denote
    simp only [bind, Except.bind, addSup, Scripts.subs, Scripts.sups, List.length_cons]
    cases hb : b.sup with
    | some n =>
      refine ⟨fun h => ?_, fun _ => rfl⟩
      simp only [Option.isSome_some, Bool.toNat_true] at h
      omega
    | none =>
      have := ih l { b with sup := some (Rec.rowUnlessSingle (primesNodes (t :: ts))) }
      simp only [Option.isSome_some, Option.isSome_none, Bool.toNat_true, Bool.toNat_false, Nat.add_zero] at this ⊢
      exact this
  | .primesSup t ts a s => by
    intro ha l b
    obtain ⟨r, h1⟩ := ha a (by simp [Scripts.args, Scripts.subs, Scripts.sups]) true
      { l with style := scriptStyle l.style }
    have ih := scripts_decide s (fun a' h' => ha a' (by
      simp only [Scripts.args, Scripts.subs, Scripts.sups, List.mem_append] at h' ⊢
      rcases h' with h' | h'
      · exact Or.inl h'
      · exact Or.inr (by simp only [List.filterMap_cons]; exact List.mem_cons_of_mem _ h')))
    unfold Scripts.denote
    rw [h1]
    simp only [bind, Except.bind, addSup, Scripts.subs, Scripts.sups, List.length_cons]
    cases hb : b.sup with
    | some n =>
      refine ⟨fun h => ?_, fun _ => rfl⟩
      simp only [Option.isSome_some, Bool.toNat_true] at h
      omega
    | none =>
      have := ih { r.2 with style := l.style } { b with sup := some (Rec.rowUnlessSingle (primesNodes (t :: ts) ++ [r.1])) }
      simp only [Option.isSome_some, Option.isSome_none, Bool.toNat_true, Bool.toNat_false, Nat.add_zero] at this ⊢
      exact this

/-- The meaning of a formula which begins with something with scripts -/
theorem item_value {b : Base} {s : Scripts} {rest : Form} {l : Loc} {prev nxt : Class} {ns : List Node} {l' : Loc}
    (h : (Form.item b s rest).denote l prev nxt = .ok (ns, l')) :
    ∃ n bs l1 l2 more, ns = withScripts n bs :: more ∧ s.denote l1 {} = .ok (bs, l2) := by
  unfold Form.denote at h
  cases h1 : b.denote l prev (lead (s.tokens ++ rest.tokens) nxt) with
  | error e => simp only [bind, Except.bind, h1] at h; cases h
  | ok r =>
    cases h2 : s.denote r.2 {} with
    | error e => simp only [bind, Except.bind, h1, h2] at h; cases h
    | ok rs =>
      cases h3 : rest.denote rs.2 r.1.1 nxt with
      | error e => simp only [bind, Except.bind, h1, h2, h3] at h; cases h
      | ok rr =>
        simp only [bind, Except.bind, h1, h2, h3] at h
        cases h
        exact ⟨_, _, _, _, _, rfl, h2⟩

/-- C35, what is shown: if the conversion of a base with scripts succeeds, there is at most one subscript and at
most one superscript, and they are attached to the base: a superscript consists of the primes, followed by the
argument of `^`. -/
theorem C35_at_most_one (c : Converter) {src : Str} {b : Base} {s : Scripts} {rest : Form} (display : MathDisplay)
    (hf : (Form.item b s rest).ok false = true)
    (hl : (Form.item b s rest).linked (knownMacros c.parserCfg.toParserConfig c.state))
    (hs : Spells c.parserCfg.toParserConfig c.state src (Form.item b s rest).tokens) {out : Out} {c' : Converter}
    (h : Gives c (.withGlobalState src display) (.one (.ok out)) c') :
    ∃ base sub sup style more, ShownSub style s.subs sub ∧ ShownSup style s.sups sup ∧
      out = emitSnippet c.emitterCfg c'.state.labelMap src display (withScripts base ⟨sub, sup⟩ :: more) := by
  have hc := formula_converts c display hf hl hs
  cases hv : (Form.item b s rest).value c.parserCfg.maxExpansions c.state display with
  | error k =>
    rw [hv] at hc
    obtain ⟨e, c2, -, h2⟩ := hc
    have := (gives_unique h h2).1
    cases this
  | ok p =>
    obtain ⟨ns, l⟩ := p
    rw [hv] at hc
    obtain ⟨g1, g2⟩ := gives_unique h hc
    cases g1
    obtain ⟨n, bs, l1, l2, more, rfl, hd⟩ := item_value hv
    obtain ⟨-, -, h3, -, h5⟩ := scripts_shown s hd
    refine ⟨n, bs.sub, bs.sup, l1.style, more, h3 rfl, h5 rfl, ?_⟩
    rw [g2]

/-- C35, the decision: if everything else is in order, the conversion of a base with scripts succeeds if there is at
most one subscript and at most one superscript; otherwise there is the error about duplicate scripts. -/
theorem C35_scripts (c : Converter) {src : Str} {b : Base} {s : Scripts} {rest : Form} (display : MathDisplay)
    (hf : (Form.item b s rest).ok false = true)
    (hl : (Form.item b s rest).linked (knownMacros c.parserCfg.toParserConfig c.state))
    (hs : Spells c.parserCfg.toParserConfig c.state src (Form.item b s rest).tokens)
    (hb : b.Sound) (ha : ∀ a ∈ s.args, a.Sound) (hr : rest.Sound) :
    (s.subs.length ≤ 1 ∧ s.sups.length ≤ 1 →
      ∃ out c', Gives c (.withGlobalState src display) (.one (.ok out)) c') ∧
    (¬ (s.subs.length ≤ 1 ∧ s.sups.length ≤ 1) →
      ∃ e c', e.kind = .duplicateSubOrSup ∧ Gives c (.withGlobalState src display) (.one (.err e)) c') := by
  have hc := formula_converts c display hf hl hs
  obtain ⟨r, h1⟩ := hb ⟨display.style, {}, c.state.equationCount, c.state.labelMap, c.parserCfg.maxExpansions, false⟩ .opening
    (lead (s.tokens ++ rest.tokens) .ending)
  obtain ⟨d1, d2⟩ := scripts_decide s ha r.2 {}
  constructor
  · intro hcond
    obtain ⟨rs, h2⟩ := d1 hcond
    obtain ⟨rr, h3⟩ := hr rs.2 r.1.1 .ending
    have hv : (Form.item b s rest).value c.parserCfg.maxExpansions c.state display = .ok (withScripts r.1.2 rs.1 :: rr.1, rr.2) := by
      unfold Form.value Form.denote
      simp only [bind, Except.bind, h1, h2, h3]
    rw [hv] at hc
    exact ⟨_, _, hc⟩
  · intro hcond
    have h2 := d2 hcond
    have hv : (Form.item b s rest).value c.parserCfg.maxExpansions c.state display = .error .duplicateSubOrSup := by
      unfold Form.value Form.denote
      simp only [bind, Except.bind, h1, h2]
    rw [hv] at hc
    exact hc

/-! ### An example -/

/-- Does the source consist of the tokens of the formula, if read by a new converter? -/
def isSource (config : MathCoreConfig) (src : Str) (f : Form) : Bool :=
  match Converter.new config with
  | .error _ => false
  | .ok c => f.ok false && spells c.parserCfg.toParserConfig c.state src f.tokens

/-- What `isSource` checks -/
theorem isSource_spec {config : MathCoreConfig} {src : Str} {f : Form} (h : isSource config src f = true) :
    ∃ c, Converter.new config = .ok c ∧ f.ok false = true ∧ Spells c.parserCfg.toParserConfig c.state src f.tokens := by
  unfold isSource at h
  cases hc : Converter.new config with
  | error e => rw [hc] at h; cases h
  | ok c =>
    rw [hc] at h
    simp only [Bool.and_eq_true] at h
    exact ⟨c, rfl, h.1, spells_spec h.2⟩

/-- The token of a character -/
abbrev ch (c : Char) : Token := Lexer.charToken c

/-- `x_1''^y = 2` -/
def scriptsExample (s : Scripts) : Form :=
  .item (.atom (ch 'x')) s (.item (.atom (ch '=')) .nil (.item (.number '2' []) .nil .nil))

example : isSource exampleConfig c!"x_1 ''^y=2"
    (scriptsExample (.sub (.tok (ch '1')) (.primesSup (ch '\'') [ch '\''] (.tok (ch 'y')) .nil))) = true := by
  decide +kernel

example : isSource exampleConfig c!"x' _1'=2"
    (scriptsExample (.primes (ch '\'') [] (.sub (.tok (ch '1')) (.primes (ch '\'') [] .nil)))) = true := by
  decide +kernel

theorem sound_atom (t : Token) : (Base.atom t).Sound := fun _ _ _ => ⟨_, by unfold Base.denote; rfl⟩
theorem sound_number (d : Char) (more : List (Bool × Char)) : (Base.number d more).Sound :=
  fun _ _ _ => ⟨_, by unfold Base.denote; rfl⟩
theorem sound_tok (t : Token) : (Arg.tok t).Sound := by
  intro reset l
  unfold Arg.denote
  cases t.unwrapMath <;> exact ⟨_, rfl⟩
theorem sound_nil : Form.nil.Sound := fun _ _ _ => ⟨_, by unfold Form.denote; rfl⟩
theorem sound_item {b : Base} {rest : Form} (hb : b.Sound) (hr : rest.Sound) : (Form.item b .nil rest).Sound := by
  intro l prev nxt
  obtain ⟨r, h1⟩ := hb l prev (lead (Scripts.nil.tokens ++ rest.tokens) nxt)
  obtain ⟨rr, h2⟩ := hr r.2 r.1.1 nxt
  exact ⟨_, by unfold Form.denote Scripts.denote; simp only [bind, Except.bind, h1, h2]; rfl⟩

/-- The hypotheses of `C35_scripts` for the second example -/
example : (Base.atom (ch 'x')).Sound ∧
    (∀ a ∈ (Scripts.primes (ch '\'') [] (.sub (.tok (ch '1')) (.primes (ch '\'') [] .nil))).args, a.Sound) ∧
    (Form.item (.atom (ch '=')) .nil (.item (.number '2' []) .nil .nil)).Sound := by
  refine ⟨sound_atom _, ?_, sound_item (sound_atom _) (sound_item (sound_number _ _) sound_nil)⟩
  intro a ha
  simp only [Scripts.args, Scripts.subs, Scripts.sups, List.filterMap_cons, List.filterMap_nil, List.append_nil,
    List.mem_singleton] at ha
  subst ha
  exact sound_tok _

end Verif

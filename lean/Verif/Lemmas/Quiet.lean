import Verif.Spec.Rows
/-! Formulas without numbers mean the same wherever they are, and change nothing. -/
namespace Verif
open Model Spec

/-- For all places which satisfy `P`, the meaning is the same, and nothing is changed. -/
def Steady {α : Type} (P : Loc → Prop) (m : Loc → Except LatexErrKind (α × Loc)) : Prop :=
  ∃ r, ∀ l, P l → m l = Except.map (fun x => (x, l)) r

theorem steady_congr {α : Type} {P : Loc → Prop} {m m' : Loc → Except LatexErrKind (α × Loc)}
    (h : ∀ l, P l → m l = m' l) (hm : Steady P m') : Steady P m := by
  obtain ⟨r, hr⟩ := hm
  exact ⟨r, fun l hl => (h l hl).trans (hr l hl)⟩

theorem steady_pure {α : Type} {P : Loc → Prop} (a : α) : Steady P fun l => .ok (a, l) := ⟨.ok a, fun _ _ => rfl⟩

theorem steady_error {α : Type} {P : Loc → Prop} (k : LatexErrKind) : Steady (α := α) P fun _ => .error k :=
  ⟨.error k, fun _ _ => rfl⟩

/-- One after the other; in between, the style may be changed. -/
theorem steady_bind {α β : Type} {P Q : Loc → Prop} {m : Loc → Except LatexErrKind (α × Loc)}
    {k : Loc → α × Loc → Except LatexErrKind (β × Loc)} (f : Loc → Loc) (hf : ∀ l, P l → Q (f l))
    (hm : Steady Q m) (hk : ∀ a, Steady P fun l => k l (a, f l)) :
    Steady P fun l => (m (f l)).bind fun x => k l x := by
  obtain ⟨r, hr⟩ := hm
  cases r with
  | error e => exact ⟨.error e, fun l hl => by dsimp only; rw [hr _ (hf l hl)]; rfl⟩
  | ok a =>
    obtain ⟨r2, h2⟩ := hk a
    exact ⟨r2, fun l hl => by dsimp only; rw [hr _ (hf l hl)]; exact h2 l hl⟩

/-- The same where the second part does not change anything by itself -/
theorem steady_bind' {α β : Type} {P : Loc → Prop} {m : Loc → Except LatexErrKind (α × Loc)}
    {k : α × Loc → Except LatexErrKind (β × Loc)} (hm : Steady P m) (hk : ∀ a, Steady P fun l => k (a, l)) :
    Steady P fun l => (m l).bind k :=
  steady_bind (fun l => l) (fun _ h => h) hm hk

theorem steady_pure_bind {α β : Type} {P : Loc → Prop} {m : Except LatexErrKind α}
    {k : Loc → α → Except LatexErrKind (β × Loc)} (hk : ∀ a, Steady P fun l => k l a) :
    Steady P fun l => m.bind (k l) := by
  cases m with
  | error e => exact steady_error e
  | ok a => exact hk a

/-- Places with this style, and if `sep` with this environment -/
def AtLoc (stk : Bool) (st : Style) (sep : Bool) (env : EnvState) (l : Loc) : Prop :=
  l.style = st ∧ (sep = true → l.env = env) ∧ l.stacked = stk

theorem AtLoc.style {stk st sep env l} (h : AtLoc stk st sep env l) (st' : Style) : AtLoc stk st' sep env { l with style := st' } :=
  ⟨rfl, h.2⟩

theorem AtLoc.weaken {stk st sep env l} (h : AtLoc stk st sep env l) (env' : EnvState) : AtLoc stk st false env' l := ⟨h.1, nofun, h.2.2⟩

theorem Loc.style_eta {l : Loc} {st : Style} (h : l.style = st) : { l with style := st } = l := by cases h; rfl

mutual
theorem quiet_form {stk : Bool} : ∀ (f : Form) (sep : Bool), f.quiet sep = true → ∀ (st : Style) (env : EnvState) (prev nxt : Class),
    (sep = true → env.numbered = none) → Steady (AtLoc stk st sep env) fun l => f.denote l prev nxt
  | .nil, sep, _, st, env, prev, nxt, _ => steady_congr (fun l _ => by rw [Form.denote]) (steady_pure [])
  | .item b s rest, sep, h, st, env, prev, nxt, he => by
    simp only [Form.quiet, Bool.and_eq_true] at h
    obtain ⟨⟨h1, h2⟩, h3⟩ := h
    simp only [Form.denote]
    refine steady_bind' (quiet_base b h1 st sep env _ _) fun r => ?_
    try dsimp only
    refine steady_bind' (quiet_scripts s h2 st sep env _) fun rs => ?_
    try dsimp only
    refine steady_bind' (quiet_form rest sep h3 st env _ _ he) fun rr => ?_
    try dsimp only
    exact steady_pure _
  | .bigOp o s rest, sep, h, st, env, prev, nxt, he => by
    simp only [Form.quiet, Bool.and_eq_true] at h
    obtain ⟨h2, h3⟩ := h
    simp only [Form.denote]
    by_cases hc : o.op.cat = .C
    · simp only [hc, if_true]
      refine steady_congr (m' := fun l => (s.denote l {}).bind fun rs => (rest.denote rs.2 .operator nxt).bind fun rr =>
        .ok (withScripts (.operator o.op.asOp .empty none (opSpacing st prev (lead (s.tokens ++ rest.tokens) nxt) false).1
          (opSpacing st prev (lead (s.tokens ++ rest.tokens) nxt) false).2) rs.1 :: rr.1, rr.2))
        (fun l hl => by rw [← hl.1]; rfl) ?_
      refine steady_bind' (quiet_scripts s h2 st sep env _) fun rs => ?_
      try dsimp only
      refine steady_bind' (quiet_form rest sep h3 st env _ _ he) fun rr => ?_
      try dsimp only
      exact steady_pure _
    · simp only [hc, if_false]
      refine steady_bind' (quiet_scripts s h2 st sep env _) fun rs => ?_
      try dsimp only
      refine steady_congr (m' := fun l => (rest.denote l .operator nxt).bind fun rr =>
        .ok (opNode (limitsSet o.lim (o.op.cat = .J)) (.operator o.op.asOp (limitsAttrs (o.op.cat = .J) o.lim rs) none
          (opSpacing st prev (lead rest.tokens nxt) false).1
          (opSpacing st prev (lead rest.tokens nxt) false).2) rs :: rr.1, rr.2))
        (fun l hl => by rw [← hl.1]; rfl) ?_
      refine steady_bind' (quiet_form rest sep h3 st env _ _ he) fun rr => ?_
      try dsimp only
      exact steady_pure _
  | .func x lim s rest, sep, h, st, env, prev, nxt, he => by
    simp only [Form.quiet, Bool.and_eq_true] at h
    obtain ⟨h2, h3⟩ := h
    simp only [Form.denote]
    refine steady_bind' (quiet_scripts s h2 st sep env _) fun rs => ?_
    try dsimp only
    refine steady_congr (m' := fun l => (rest.denote l .operator nxt).bind fun rr =>
      .ok (opNode (limitsSet x.lim lim) (.pseudoOp (funcAttrs lim x.lim rs)
        (opSpacing st prev (lead rest.tokens nxt) true).1
        (opSpacing st prev (lead rest.tokens nxt) true).2 x.name.shown) rs :: rr.1, rr.2))
      (fun l hl => by rw [← hl.1]; rfl) ?_
    refine steady_bind' (quiet_form rest sep h3 st env _ _ he) fun rr => ?_
    try dsimp only
    exact steady_pure _
  | .amp rest, sep, h, st, env, prev, nxt, he => by
    simp only [Form.quiet, Bool.and_eq_true] at h
    obtain ⟨rfl, h3⟩ := h
    simp only [Form.denote]
    by_cases ha : env.allowColumns = true
    · refine steady_congr (m' := fun l => (rest.denote l .closing nxt).bind fun rr => .ok (.columnSeparator :: rr.1, rr.2))
        (fun l hl => by rw [hl.2.1 rfl, if_pos ha]; rfl) ?_
      refine steady_bind' (quiet_form rest true h3 st env _ _ he) fun rr => ?_
      try dsimp only
      exact steady_pure _
    · exact steady_congr (fun l hl => by rw [hl.2.1 rfl, if_neg ha]) (steady_error _)
  | .newLine line rest, sep, h, st, env, prev, nxt, he => by
    simp only [Form.quiet, Bool.and_eq_true] at h
    obtain ⟨rfl, h3⟩ := h
    simp only [Form.denote]
    by_cases hal : line = none ∨ linesAllowed env = true
    case neg =>
      obtain ⟨x, rfl⟩ := Option.ne_none_iff_exists'.1 (fun h => hal (Or.inl h))
      have hf : linesAllowed env = false := Bool.not_eq_true _ ▸ fun h => hal (Or.inr h)
      refine steady_congr (fun l hl => ?_) (steady_error (misplacedLine x))
      have hb : ∃ r, lineBreak none l = .ok r := by
        unfold lineBreak
        rw [hl.2.1 rfl, he rfl]
        split <;> exact ⟨_, rfl⟩
      obtain ⟨r, hb⟩ := hb
      unfold nextRow
      rw [hl.2.1 rfl, hf, hb]
      rfl
    refine steady_congr (m' := fun l => (rest.denote l .opening nxt).bind fun rr =>
      .ok ((if !env.meaningfulNewlines then .emptyRow else .rowSeparator none line) :: rr.1, rr.2)) (fun l hl => ?_) ?_
    · have hn : nextRow line l = lineBreak line l := by
        unfold nextRow
        rcases hal with rfl | h
        · rfl
        · rw [hl.2.1 rfl, h]; cases line <;> rfl
      rw [hn]
      unfold lineBreak
      rw [hl.2.1 rfl]
      split
      · rfl
      · rw [he rfl]; rfl
    · refine steady_bind' (quiet_form rest true h3 st env _ _ he) fun rr => ?_
      try dsimp only
      exact steady_pure _
  | .noNumber _, _, h, _, _, _, _, _ => by simp [Form.quiet] at h
  | .tag _ _ _, _, h, _, _, _, _, _ => by simp [Form.quiet] at h
  | .label _ _, _, h, _, _, _, _, _ => by simp [Form.quiet] at h
  | .style s rest, sep, h, st, env, prev, nxt, he => by
    simp only [Form.quiet] at h
    simp only [Form.denote]
    refine steady_bind (Q := AtLoc stk s false env) (fun l => { l with style := s }) (fun l hl => ⟨rfl, nofun, hl.2.2⟩)
      (quiet_form rest false h s env prev nxt nofun) fun r => ?_
    try dsimp only
    exact steady_congr (fun l hl => rfl) (steady_pure _)
  | .color name rest, sep, h, st, env, prev, nxt, he => by
    simp only [Form.quiet] at h
    simp only [Form.denote]
    refine steady_pure_bind fun c => ?_
    try dsimp only
    refine steady_bind (Q := AtLoc stk st false env) (fun l => l) (fun l hl => hl.weaken _)
      (quiet_form rest false h st env prev nxt nofun) fun r => ?_
    try dsimp only
    exact steady_congr (fun l hl => rfl) (steady_pure _)

theorem quiet_base {stk : Bool} : ∀ (b : Base), b.quiet = true → ∀ (st : Style) (sep : Bool) (env : EnvState) (prev nxt : Class),
    Steady (AtLoc stk st sep env) fun l => b.denote l prev nxt
  | .atom t, _, st, sep, env, prev, nxt => by
    simp only [Base.denote]
    exact steady_congr (fun l hl => by rw [Loc.seen, hl.1, hl.2.2])
      (steady_pure (atomNode st true prev (if stk && nxt = .ending then .default else nxt) t.unwrapMath))
  | .number d more, _, st, sep, env, prev, nxt => by
    simp only [Base.denote]
    exact steady_pure _
  | .group f, h, st, sep, env, prev, nxt => by
    simp only [Base.quiet] at h
    simp only [Base.denote]
    refine steady_bind (Q := AtLoc stk st false env) (fun l => l) (fun l hl => hl.weaken _) (quiet_form f false h st env _ _ nofun)
      fun r => ?_
    try dsimp only
    exact steady_congr (fun l hl => rfl) (steady_pure _)
  | .frac attr isBinom num den, h, st, sep, env, prev, nxt => by
    simp only [Base.quiet, Bool.and_eq_true] at h
    simp only [Base.denote]
    refine steady_congr (m' := fun l => (num.denote true { l with style := fractionStyle st attr }).bind fun r1 =>
      (den.denote true r1.2).bind fun r2 =>
        .ok ((.default, if isBinom then fenced [Node.frac r1.1 r2.1 (if isBinom then Length.zero else Length.none).value
            (if isBinom then Length.zero else Length.none).unit attr] (some openParen) (some closeParen) none
          else Node.frac r1.1 r2.1 (if isBinom then Length.zero else Length.none).value
            (if isBinom then Length.zero else Length.none).unit attr), { r2.2 with style := st }))
      (fun l hl => by rw [hl.1]; rfl) ?_
    refine steady_bind (Q := AtLoc stk (fractionStyle st attr) sep env) (fun l => { l with style := fractionStyle st attr })
      (fun l hl => hl.style _) (quiet_arg num h.1 true _ sep env) fun r1 => ?_
    try dsimp only
    refine steady_bind (Q := AtLoc stk (fractionStyle st attr) sep env) (fun l => { l with style := fractionStyle st attr })
      (fun l hl => hl.style _) (quiet_arg den h.2 true _ sep env) fun r2 => ?_
    try dsimp only
    refine steady_congr (fun l hl => ?_) (steady_pure (.default, if isBinom then fenced [Node.frac r1 r2 (if isBinom then Length.zero else Length.none).value
            (if isBinom then Length.zero else Length.none).unit attr] (some openParen) (some closeParen) none
          else Node.frac r1 r2 (if isBinom then Length.zero else Length.none).value
            (if isBinom then Length.zero else Length.none).unit attr))
    simp only [Loc.style_eta hl.1]
  | .genfrac x num den, h, st, sep, env, prev, nxt => by
    simp only [Base.quiet, Bool.and_eq_true] at h
    simp only [Base.denote]
    refine steady_pure_bind fun opening => ?_
    try dsimp only
    refine steady_pure_bind fun closing => ?_
    try dsimp only
    refine steady_pure_bind fun lt => ?_
    try dsimp only
    refine steady_pure_bind fun style => ?_
    try dsimp only
    refine steady_bind' (quiet_arg num h.1 true st sep env) fun r => ?_
    try dsimp only
    refine steady_bind' (quiet_arg den h.2 true st sep env) fun r => ?_
    try dsimp only
    exact steady_pure _
  | .stackTok isOver symbol t, h, st, sep, env, prev, nxt => by
    simp only [Base.quiet] at h
    simp only [Base.denote]
    refine steady_congr (m' := fun l => (symbol.denote true { l with style := .script }).bind fun r =>
      .ok (((aloneNode st prev (if nxt = .ending then .default else nxt) t.unwrapMath).1,
        stackNode isOver r.1 (aloneNode st prev (if nxt = .ending then .default else nxt) t.unwrapMath).2),
        { r.2 with style := st })) (fun l hl => by rw [← hl.1]; rfl) ?_
    refine steady_bind (Q := AtLoc stk .script sep env) (fun l => { l with style := .script })
      (fun l hl => hl.style _) (quiet_arg symbol h true _ sep env) fun r => ?_
    try dsimp only
    exact steady_congr (fun l hl => by simp only [Loc.style_eta hl.1])
      (steady_pure ((aloneNode st prev (if nxt = .ending then .default else nxt) t.unwrapMath).1,
        stackNode isOver r (aloneNode st prev (if nxt = .ending then .default else nxt) t.unwrapMath).2))
  | .stackGroup isOver symbol f, h, st, sep, env, prev, nxt => by
    simp only [Base.quiet, Bool.and_eq_true] at h
    simp only [Base.denote]
    refine steady_bind (Q := AtLoc stk .script sep env) (fun l => { l with style := .script })
      (fun l hl => hl.style _) (quiet_arg symbol h.1 true _ sep env) fun r => ?_
    try dsimp only
    refine steady_bind (Q := AtLoc true st false env) (fun l => { l with stacked := true })
      (fun l hl => ⟨hl.1, nofun, rfl⟩) (quiet_form f false h.2 st env _ _ nofun)
      (k := fun l rf => Except.ok ((Class.default, stackNode isOver r (nodeVecToNode rf.1 false)),
        { rf.2 with style := l.style, stacked := l.stacked })) fun rf => ?_
    try dsimp only
    exact steady_pure _
  | .arrow rel over, h, st, sep, env, prev, nxt => by
    simp only [Base.quiet] at h
    simp only [Base.denote]
    refine steady_bind (Q := AtLoc true .script sep env) (fun l => { l with style := .script, stacked := true })
      (fun l hl => ⟨rfl, hl.2.1, rfl⟩) (quiet_arg over h true _ sep env) fun r => ?_
    try dsimp only
    exact steady_congr (fun l hl => by rw [← hl.1]) (steady_pure (Class.relation, arrowNode rel (relationSpacing st prev nxt false) none r))
  | .arrowUnder rel under over, h, st, sep, env, prev, nxt => by
    simp only [Base.quiet, Bool.and_eq_true] at h
    simp only [Base.denote]
    refine steady_bind (Q := AtLoc true .script false env) (fun l => { l with style := .script, stacked := true })
      (fun l hl => ⟨rfl, nofun, rfl⟩) (quiet_form under false h.1 .script env _ _ nofun) fun ru => ?_
    try dsimp only
    refine steady_bind (Q := AtLoc true .script sep env) (fun l => { l with style := .script, stacked := true })
      (fun l hl => ⟨rfl, hl.2.1, rfl⟩) (quiet_arg over h.2 true _ sep env)
      (k := fun l r => Except.ok ((Class.relation, arrowNode rel (relationSpacing l.style prev nxt false)
        (some (nodeVecToNode ru false)) r.1), { r.2 with style := l.style, stacked := l.stacked })) fun r => ?_
    try dsimp only
    exact steady_congr (fun l hl => by rw [← hl.1]) (steady_pure (Class.relation, arrowNode rel (relationSpacing st prev nxt false)
      (some (nodeVecToNode ru false)) r))
  | .cramped s f, h, st, sep, env, prev, nxt => by
    simp only [Base.quiet] at h
    simp only [Base.denote]
    refine steady_bind (Q := AtLoc stk st false env) (fun l => l) (fun l hl => hl.weaken _) (quiet_form f false h st env _ _ nofun)
      fun r => ?_
    try dsimp only
    exact steady_congr (fun l hl => rfl) (steady_pure _)
  | .sqrt a, h, st, sep, env, prev, nxt => by
    simp only [Base.quiet] at h
    simp only [Base.denote]
    refine steady_bind' (quiet_arg a h true st sep env) fun r => ?_
    try dsimp only
    exact steady_pure _
  | .root degree a, h, st, sep, env, prev, nxt => by
    simp only [Base.quiet, Bool.and_eq_true] at h
    simp only [Base.denote]
    refine steady_bind (Q := AtLoc stk st false env) (fun l => l) (fun l hl => hl.weaken _)
      (quiet_form degree false h.1 st env _ _ nofun) fun r => ?_
    try dsimp only
    refine steady_bind (Q := AtLoc stk st sep env) (fun l => l) (fun l hl => hl) (quiet_arg a h.2 true st sep env)
      (k := fun l ra => Except.ok ((Class.default, Node.root (nodeVecToNode r true) ra.1), ra.2)) fun ra => ?_
    try dsimp only
    exact steady_pure _
  | .deco d a, h, st, sep, env, prev, nxt => by
    simp only [Base.quiet] at h
    simp only [Base.denote]
    refine steady_bind' (quiet_arg a h d.reset st sep env) fun r => ?_
    try dsimp only
    exact steady_pure _
  | .brace x isOver a, h, st, sep, env, prev, nxt => by
    simp only [Base.quiet] at h
    simp only [Base.denote]
    refine steady_bind' (quiet_arg a h false st sep env) fun r => ?_
    try dsimp only
    exact steady_pure _
  | .braceLabel x isOver a b, h, st, sep, env, prev, nxt => by
    simp only [Base.quiet, Bool.and_eq_true] at h
    simp only [Base.denote]
    refine steady_bind' (quiet_arg a h.1 false st sep env) fun r => ?_
    try dsimp only
    refine steady_bind' (quiet_arg b h.2 true st sep env) fun r => ?_
    try dsimp only
    exact steady_pure _
  | .prescript a b c, h, st, sep, env, prev, nxt => by
    simp only [Base.quiet, Bool.and_eq_true] at h
    simp only [Base.denote]
    refine steady_bind' (quiet_arg a h.1.1 true st sep env) fun r => ?_
    try dsimp only
    refine steady_bind' (quiet_arg b h.1.2 true st sep env) fun r => ?_
    try dsimp only
    refine steady_bind' (quiet_arg c h.2 true st sep env) fun r => ?_
    try dsimp only
    exact steady_pure _
  | .leaf x, h, st, sep, env, prev, nxt => by
    simp only [Base.denote]
    refine steady_congr (m' := fun l => (x.denote st prev nxt).bind fun r => .ok (r, l)) (fun l hl => by rw [hl.1]; rfl) ?_
    refine steady_pure_bind fun r => ?_
    try dsimp only
    exact steady_pure _
  | .mathClass kind b, h, st, sep, env, prev, nxt => by
    simp only [Base.quiet] at h
    simp only [Base.denote]
    refine steady_bind' (quiet_base b h st sep env prev nxt) fun r => ?_
    try dsimp only
    exact steady_congr (fun l hl => by rw [hl.1]) (steady_pure (givenClass kind, mathClassNode r.2
      (classSpacing st prev nxt kind).1 (classSpacing st prev nxt kind).2))
  | .overlay o b, h, st, sep, env, prev, nxt => by
    simp only [Base.quiet] at h
    simp only [Base.denote]
    refine steady_bind' (quiet_base b h st sep env prev nxt) fun r => ?_
    try dsimp only
    refine steady_pure_bind fun n => ?_
    try dsimp only
    exact steady_pure _
  | .fence lt rt f, h, st, sep, env, prev, nxt => by
    simp only [Base.quiet] at h
    simp only [Base.denote]
    refine steady_pure_bind fun opening => ?_
    try dsimp only
    refine steady_bind (Q := AtLoc stk st false env) (fun l => l) (fun l hl => hl.weaken _) (quiet_form f false h st env _ _ nofun)
      fun r => ?_
    try dsimp only
    refine steady_pure_bind fun closing => ?_
    try dsimp only
    exact steady_congr (fun l hl => rfl) (steady_pure _)
  | .env e e' o f, h, st, sep, env, prev, nxt => by
    simp only [Base.quiet, Bool.and_eq_true, Option.isNone_iff_eq_none] at h
    simp only [Base.denote]
    have hn : (envState e).numbered = none := by rw [envState, h.1]; rfl
    refine steady_pure_bind fun spec => ?_
    try dsimp only
    refine steady_bind (Q := AtLoc stk (envStyle e) true (envState e)) (fun l => { l with style := envStyle e, env := envState e })
      (fun l hl => ⟨rfl, fun _ => rfl, hl.2.2⟩) (quiet_form f true h.2 (envStyle e) (envState e) _ _ fun _ => hn) fun r => ?_
    try dsimp only
    unfold endEnv
    by_cases hee : e' = e
    · subst hee
      simp only [ne_eq, not_true_eq_false, if_false, hn]
      cases hcn : e'.constructNode r spec none none o.line with
      | none => exact steady_error _
      | some node => exact steady_congr (fun l hl => rfl) (steady_pure _)
    · simp only [ne_eq, hee, not_false_eq_true, if_true]
      exact steady_error _

theorem quiet_arg {stk : Bool} : ∀ (a : Arg), a.quiet = true → ∀ (reset : Bool) (st : Style) (sep : Bool) (env : EnvState),
    Steady (AtLoc stk st sep env) fun l => a.denote reset l
  | .tok t, _, reset, st, sep, env => by
    simp only [Arg.denote]
    split
    · exact steady_pure _
    · exact steady_congr (fun l hl => by rw [hl.1]) (steady_pure (atomNode st false .default .default _).2)
  | .braces f, h, reset, st, sep, env => by
    simp only [Arg.quiet] at h
    simp only [Arg.denote]
    refine steady_bind (Q := AtLoc stk st false env) (fun l => l) (fun l hl => hl.weaken _) (quiet_form f false h st env _ _ nofun)
      fun r => ?_
    try dsimp only
    exact steady_congr (fun l hl => rfl) (steady_pure _)

theorem quiet_scripts {stk : Bool} : ∀ (s : Scripts), s.quiet = true → ∀ (st : Style) (sep : Bool) (env : EnvState) (b : Bounds),
    Steady (AtLoc stk st sep env) fun l => s.denote l b
  | .nil, _, st, sep, env, b => by
    simp only [Scripts.denote]
    exact steady_pure _
  | .sub a s, h, st, sep, env, b => by
    simp only [Scripts.quiet, Bool.and_eq_true] at h
    simp only [Scripts.denote]
    refine steady_congr (m' := fun l => (a.denote true { l with style := scriptStyle st }).bind fun r =>
      (addSub r.1 b).bind fun b => s.denote { r.2 with style := l.style } b) (fun l hl => by rw [hl.1]; rfl) ?_
    refine steady_bind (Q := AtLoc stk (scriptStyle st) sep env) (fun l => { l with style := scriptStyle st })
      (fun l hl => hl.style _) (quiet_arg a h.1 true _ sep env) fun r => ?_
    try dsimp only
    refine steady_pure_bind fun b => ?_
    try dsimp only
    exact quiet_scripts s h.2 st sep env b
  | .sup a s, h, st, sep, env, b => by
    simp only [Scripts.quiet, Bool.and_eq_true] at h
    simp only [Scripts.denote]
    refine steady_congr (m' := fun l => (a.denote true { l with style := scriptStyle st }).bind fun r =>
      (addSup r.1 b).bind fun b => s.denote { r.2 with style := l.style } b) (fun l hl => by rw [hl.1]; rfl) ?_
    refine steady_bind (Q := AtLoc stk (scriptStyle st) sep env) (fun l => { l with style := scriptStyle st })
      (fun l hl => hl.style _) (quiet_arg a h.1 true _ sep env) fun r => ?_
    try dsimp only
    refine steady_pure_bind fun b => ?_
    try dsimp only
    exact quiet_scripts s h.2 st sep env b
  | .primes t ts s, h, st, sep, env, b => by
    simp only [Scripts.quiet] at h
    simp only [Scripts.denote]
    refine steady_pure_bind fun b => ?_
    try dsimp only
    exact quiet_scripts s h st sep env b
  | .primesSup t ts a s, h, st, sep, env, b => by
    simp only [Scripts.quiet, Bool.and_eq_true] at h
    simp only [Scripts.denote]
    refine steady_congr (m' := fun l => (a.denote true { l with style := scriptStyle st }).bind fun r =>
      (addSup (Rec.rowUnlessSingle (primesNodes (t :: ts) ++ [r.1])) b).bind fun b =>
        s.denote { r.2 with style := l.style } b) (fun l hl => by rw [hl.1]; rfl) ?_
    refine steady_bind (Q := AtLoc stk (scriptStyle st) sep env) (fun l => { l with style := scriptStyle st })
      (fun l hl => hl.style _) (quiet_arg a h.1 true _ sep env) fun r => ?_
    try dsimp only
    refine steady_pure_bind fun b => ?_
    try dsimp only
    exact quiet_scripts s h.2 st sep env b
end

end Verif

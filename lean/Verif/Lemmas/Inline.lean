import Verif.Spec.Inline
import Verif.Lemmas.Source
/-! The meaning of a formula does not change if the calls of macros are written out. -/
namespace Verif
open Model Spec

/-- The limit on expansions is `n`. -/
abbrev atLeft (n : Nat) (l : Loc) : Loc := { l with left := n }

/-- The first result is the second one, where `c` of the `n` expansions which were left have been used up. If there
were not enough of them, there is an error about this instead. -/
def Agrees {α : Type} (n c : Nat) (r r' : Except LatexErrKind (α × Loc)) : Prop :=
  match r' with
  | .error e => c ≤ n → r = .error e
  | .ok (a, l) => l.left = 0 ∧ r = if c ≤ n then .ok (a, atLeft (n - c) l) else .error .tooManyExpansions

theorem Agrees.cast {α : Type} {n c c' : Nat} {r r' : Except LatexErrKind (α × Loc)} (hc : c = c')
    (h : Agrees n c r r') : Agrees n c' r r' := hc ▸ h

theorem Agrees.bind {α β : Type} {n c c2 : Nat} {r r' : Except LatexErrKind (α × Loc)}
    {k k' : α × Loc → Except LatexErrKind (β × Loc)} (h : Agrees n c r r')
    (hk : ∀ a l n, l.left = 0 → Agrees n c2 (k (a, atLeft n l)) (k' (a, l))) :
    Agrees n (c + c2) (r >>= k) (r' >>= k') := by
  cases r' with
  | error e =>
    intro hn
    have h : r = .error e := h (by omega)
    subst h
    rfl
  | ok p =>
    obtain ⟨a, l⟩ := p
    obtain ⟨h1, h2⟩ := h
    have hk := hk a l (n - c) h1
    show Agrees n (c + c2) (r >>= k) (k' (a, l))
    by_cases hc : c ≤ n
    · rw [if_pos hc] at h2
      subst h2
      show Agrees n (c + c2) (k (a, atLeft (n - c) l)) (k' (a, l))
      unfold Agrees at hk ⊢
      cases hx : k' (a, l) with
      | error e =>
        rw [hx] at hk
        exact fun _ => hk (by omega)
      | ok q =>
        obtain ⟨b, l'⟩ := q
        rw [hx] at hk
        refine ⟨hk.1, hk.2.trans ?_⟩
        by_cases h3 : c2 ≤ n - c
        · rw [if_pos h3, if_pos (by omega), Nat.sub_sub]
        · rw [if_neg h3, if_neg (by omega)]
    · rw [if_neg hc] at h2
      subst h2
      show Agrees n (c + c2) (.error .tooManyExpansions) (k' (a, l))
      unfold Agrees at hk ⊢
      cases hx : k' (a, l) with
      | error e => exact fun h => absurd h (by omega)
      | ok q =>
        obtain ⟨b, l'⟩ := q
        rw [hx] at hk
        exact ⟨hk.1, by rw [if_neg (by omega)]⟩

theorem Agrees.ok {α : Type} {n : Nat} {a : α} {l : Loc} (h : l.left = 0) :
    Agrees n 0 (.ok (a, atLeft n l)) (.ok (a, l)) := ⟨h, rfl⟩

theorem Agrees.bindL {β : Type} {n c : Nat} {r r' : Except LatexErrKind Loc}
    {k k' : Loc → Except LatexErrKind (β × Loc)}
    (h : match r' with | .error e => r = .error e | .ok l => l.left = 0 ∧ r = .ok (atLeft n l))
    (hk : ∀ l, l.left = 0 → Agrees n c (k (atLeft n l)) (k' l)) : Agrees n c (r >>= k) (r' >>= k') := by
  cases r' with
  | error e =>
    dsimp only at h
    subst h
    exact fun _ => rfl
  | ok l =>
    obtain ⟨h1, h2⟩ := h
    subst h2
    exact hk l h1

theorem Agrees.bindV {α β : Type} {n c : Nat} {r : Except LatexErrKind α}
    {k k' : α → Except LatexErrKind (β × Loc)} (hk : ∀ a, Agrees n c (k a) (k' a)) :
    Agrees n c (r >>= k) (r >>= k') := by
  cases r with
  | error e => exact fun _ => rfl
  | ok a => exact hk a

theorem Agrees.expand {α : Type} {n c : Nat} {r' : Except LatexErrKind (α × Loc)} {l : Loc}
    {k : Loc → Except LatexErrKind (α × Loc)} (h : ∀ n, Agrees n c (k (atLeft n l)) r') :
    Agrees n (1 + c) (expandOne (atLeft n l) >>= k) r' := by
  cases n with
  | zero =>
    have h := h 0
    unfold Agrees at h ⊢
    cases r' with
    | error e => exact fun h => absurd h (by omega)
    | ok p => exact ⟨h.1, by rw [if_neg (by omega)]; rfl⟩
  | succ n =>
    have h := h n
    show Agrees (n + 1) (1 + c) (k (atLeft n l)) r'
    unfold Agrees at h ⊢
    cases r' with
    | error e => exact fun hc => h (by omega)
    | ok p =>
      refine ⟨h.1, h.2.trans ?_⟩
      by_cases hc : c ≤ n
      · rw [if_pos hc, if_pos (by omega), show n + 1 - (1 + c) = n - c by omega]
      · rw [if_neg hc, if_neg (by omega)]

theorem agrees_endRow (n : RowState) (isLast : Bool) {l : Loc} {m : Nat} (h : l.left = 0) :
    match endRow n isLast l with
    | .error e => endRow n isLast (atLeft m l) = .error e
    | .ok (a, n', l') => l'.left = 0 ∧ endRow n isLast (atLeft m l) = .ok (a, n', atLeft m l') := by
  unfold endRow
  dsimp only
  cases he : n.nextEquationTag l.count isLast with
  | mk tag x =>
    cases x with
    | mk n' c =>
      cases tag with
      | none => rfl
      | some tag => exact ⟨h, rfl⟩

theorem agrees_lineBreak (line : Option LineType) {l : Loc} {m : Nat} (h : l.left = 0) :
    Agrees m 0 (lineBreak line (atLeft m l)) (lineBreak line l) := by
  unfold lineBreak
  dsimp only
  split
  · exact .ok h
  · cases hn : l.env.numbered with
    | none => exact .ok h
    | some n =>
      dsimp only
      split
      · exact fun _ => rfl
      · have := agrees_endRow (m := m) { n with numRows := n.numRows.map (· + 1) } false h
        cases hr : endRow { n with numRows := n.numRows.map (· + 1) } false l with
        | error e => rw [hr] at this; dsimp only at this; rw [this]; exact fun _ => rfl
        | ok p =>
          obtain ⟨a, n', l'⟩ := p
          rw [hr] at this
          obtain ⟨h1, h2⟩ := this
          rw [h2]
          exact ⟨h1, rfl⟩

theorem agrees_nextRow (line : Option LineType) {l : Loc} {m : Nat} (h : l.left = 0) :
    Agrees m 0 (nextRow line (atLeft m l)) (nextRow line l) := by
  unfold nextRow
  cases line with
  | none => exact agrees_lineBreak none h
  | some x =>
    show Agrees m 0 (if linesAllowed l.env then _ else _) (if linesAllowed l.env then _ else _)
    split
    · exact agrees_lineBreak _ h
    · refine Agrees.cast (c := 0 + 0) rfl ((agrees_lineBreak none h).bind fun r l1 n1 g1 => ?_)
      exact fun _ => rfl

theorem agrees_endEnv (e e' : Env) (spec : Option ArraySpec) (line : Option LineType) (content : List Node)
    {l0 l0' l : Loc} {m : Nat} (h : l.left = 0) (h0 : l0'.style = l0.style) (h1 : l0'.env = l0.env) :
    Agrees m 0 (endEnv e e' spec line content l0' (atLeft m l)) (endEnv e e' spec line content l0 l) := by
  unfold endEnv
  dsimp only
  rw [h0, h1]
  split
  · exact fun _ => rfl
  · cases hn : l.env.numbered with
    | none =>
      dsimp only
      cases e.constructNode content spec none none line with
      | none => exact fun _ => rfl
      | some node => exact ⟨h, rfl⟩
    | some n =>
      have := agrees_endRow (m := m) (l := { l with style := l0.style, env := l0.env }) n true h
      dsimp only
      cases hr : endRow n true { l with style := l0.style, env := l0.env } with
      | error e => rw [hr] at this; dsimp only at this; rw [this]; exact fun _ => rfl
      | ok p =>
        obtain ⟨a, n', l'⟩ := p
        rw [hr] at this
        obtain ⟨h1, h2⟩ := this
        rw [h2]
        simp only [bind, Except.bind]
        cases e.constructNode content spec a n'.numRows line with
        | none => exact fun _ => rfl
        | some node => exact ⟨h1, rfl⟩

theorem agrees_putTag (paren : Bool) (text : Str) {l : Loc} {m : Nat} (h : l.left = 0) :
    match putTag paren text l with
    | .error e => putTag paren text (atLeft m l) = .error e
    | .ok l' => l'.left = 0 ∧ putTag paren text (atLeft m l) = .ok (atLeft m l') := by
  unfold putTag
  dsimp only
  cases hn : l.env.numbered with
  | none => rfl
  | some n => exact ⟨h, rfl⟩

theorem agrees_putLabel (name : Str) {l : Loc} {m : Nat} (h : l.left = 0) :
    match putLabel name l with
    | .error e => putLabel name (atLeft m l) = .error e
    | .ok l' => l'.left = 0 ∧ putLabel name (atLeft m l) = .ok (atLeft m l') := by
  unfold putLabel
  dsimp only
  cases hn : l.env.numbered with
  | none => rfl
  | some n =>
    dsimp only
    by_cases hs : n.label.isSome
    · rw [if_pos hs, if_pos hs]
    · rw [if_neg hs, if_neg hs]
      exact ⟨h, rfl⟩

/-- Only operators depend on what follows. -/
theorem base_unwatched {b : Base} (h : b.watches = false) (l : Loc) (prev nxt nxt' : Class) :
    b.denote l prev nxt = b.denote l prev nxt' := by
  match b with
  | .atom t =>
    unfold Base.denote
    have h : atomWatches t.unwrapMath = false := h
    generalize t.unwrapMath = t at h ⊢
    cases t <;> first | rfl | cases h
  | .leaf x =>
    unfold Base.denote
    cases x with
    | big size side t =>
      have h : side ≠ some .middle := of_decide_eq_false h
      unfold Leaf.denote
      cases t.unwrapMath <;> first | rfl | skip
      all_goals
        cases side with
        | none => rfl
        | some side => cases side <;> first | rfl | exact absurd rfl h
    | _ => rfl
  | .mathClass _ _ | .arrow _ _ | .arrowUnder _ _ _ => cases h
  | .stackTok _ _ t =>
    unfold Base.denote
    have h : atomWatches t.unwrapMath = false := h
    generalize t.unwrapMath = t at h ⊢
    cases t <;> first | rfl | cases h
  | .overlay _ b =>
    unfold Base.denote
    rw [base_unwatched (b := b) h l prev nxt nxt']
  | .number _ _ | .group _ | .frac _ _ _ _ | .sqrt _ | .root _ _ | .deco _ _ | .fence _ _ _ | .env _ _ _ _
  | .prescript _ _ _ | .brace _ _ _ | .braceLabel _ _ _ _ | .genfrac _ _ _ | .stackGroup _ _ _ | .cramped _ _ =>
    unfold Base.denote
    rfl

mutual
theorem form_inlined : ∀ (f : Form), f.SameClasses → ∀ (l : Loc) (n : Nat) (prev nxt : Class), l.left = 0 →
    Agrees n f.calls (f.denote (atLeft n l) prev nxt) (f.inlined.denote l prev nxt)
  | .nil, _, l, n, prev, nxt, h => by
    simp only [Form.inlined, Form.calls, Form.denote]
    exact .ok h
  | .item b s rest, hc, l, n, prev, nxt, h => by
    obtain ⟨h1, h2, h3, h4⟩ := hc
    simp only [Form.inlined, Form.calls, Form.denote]
    refine Agrees.cast (c := b.calls + (s.calls + (rest.calls + 0))) (by omega) ?_
    have h1 : b.denote (atLeft n l) prev (lead (s.tokens ++ rest.tokens) nxt) =
        b.denote (atLeft n l) prev (lead (s.inlined.tokens ++ rest.inlined.tokens) nxt) := by
      cases hw : b.watches with
      | true => rw [h1 hw nxt]
      | false => exact base_unwatched hw _ _ _ _
    rw [h1]
    refine (base_inlined b h2 l _ prev _ h).bind fun r l1 n1 g1 => ?_
    refine (scripts_inlined s h3 l1 _ {} g1).bind fun rs l2 n2 g2 => ?_
    refine (form_inlined rest h4 l2 _ r.1 nxt g2).bind fun rr l3 n3 g3 => ?_
    exact .ok g3
  | .bigOp o s rest, hc, l, n, prev, nxt, h => by
    obtain ⟨h1, h2, h3, h4⟩ := hc
    simp only [Form.inlined, Form.calls, Form.denote]
    refine Agrees.cast (c := s.calls + (rest.calls + 0)) (by omega) ?_
    rw [h1 nxt, h2 nxt]
    split
    · refine (scripts_inlined s h3 l _ {} h).bind fun rs l2 n2 g2 => ?_
      refine (form_inlined rest h4 l2 _ _ nxt g2).bind fun rr l3 n3 g3 => ?_
      exact .ok g3
    · refine (scripts_inlined s h3 l _ {} h).bind fun rs l2 n2 g2 => ?_
      refine (form_inlined rest h4 l2 _ _ nxt g2).bind fun rr l3 n3 g3 => ?_
      exact .ok g3
  | .func name limits s rest, hc, l, n, prev, nxt, h => by
    obtain ⟨h2, h3, h4⟩ := hc
    simp only [Form.inlined, Form.calls, Form.denote]
    refine Agrees.cast (c := s.calls + (rest.calls + 0)) (by omega) ?_
    rw [h2 nxt]
    refine (scripts_inlined s h3 l _ {} h).bind fun rs l2 n2 g2 => ?_
    refine (form_inlined rest h4 l2 _ _ nxt g2).bind fun rr l3 n3 g3 => ?_
    exact .ok g3
  | .amp rest, hc, l, n, prev, nxt, h => by
    simp only [Form.inlined, Form.calls, Form.denote]
    refine Agrees.cast (c := rest.calls + 0) (by omega) ?_
    by_cases ha : l.env.allowColumns
    · rw [if_pos ha, if_pos ha]
      exact (form_inlined rest hc l _ _ nxt h).bind fun rr l3 n3 g3 => .ok g3
    · rw [if_neg ha, if_neg ha]
      exact fun _ => rfl
  | .newLine line rest, hc, l, n, prev, nxt, h => by
    simp only [Form.inlined, Form.calls, Form.denote]
    refine Agrees.cast (c := 0 + (rest.calls + 0)) (by omega) ?_
    refine (agrees_nextRow line h).bind fun r l1 n1 g1 => ?_
    exact (form_inlined rest hc l1 _ _ nxt g1).bind fun rr l3 n3 g3 => .ok g3
  | .noNumber rest, hc, l, n, prev, nxt, h => by
    simp only [Form.inlined, Form.calls, Form.denote]
    exact form_inlined rest hc (suppressNumber l) n prev nxt h
  | .tag paren text rest, hc, l, n, prev, nxt, h => by
    simp only [Form.inlined, Form.calls, Form.denote]
    exact Agrees.bindL (agrees_putTag paren _ h) fun l1 g1 => form_inlined rest hc l1 n prev nxt g1
  | .label text rest, hc, l, n, prev, nxt, h => by
    simp only [Form.inlined, Form.calls, Form.denote]
    exact Agrees.bindL (agrees_putLabel _ h) fun l1 g1 => form_inlined rest hc l1 n prev nxt g1
  | .style st rest, hc, l, n, prev, nxt, h => by
    simp only [Form.inlined, Form.calls, Form.denote]
    refine Agrees.cast (c := rest.calls + 0) (by omega) ?_
    exact (form_inlined rest hc { l with style := st } n prev nxt h).bind fun r l1 n1 g1 =>
      Agrees.ok (l := { l1 with style := l.style }) g1
  | .color name rest, hc, l, n, prev, nxt, h => by
    simp only [Form.inlined, Form.calls, Form.denote]
    refine Agrees.cast (c := rest.calls + 0) (by omega) ?_
    exact Agrees.bindV fun c => (form_inlined rest hc l n prev nxt h).bind fun r l1 n1 g1 =>
      Agrees.ok (l := { l1 with style := l.style }) g1
  | .call t args k cont, hc, l, n, prev, nxt, h => by
    simp only [Form.inlined, Form.calls, Form.denote]
    exact .expand fun n => form_inlined cont hc l n prev nxt h
  | .emptyCall t args s rest, hc, l, n, prev, nxt, h => by
    obtain ⟨h3, h4⟩ := hc
    simp only [Form.inlined, Form.calls, Form.denote, Base.denote]
    refine Agrees.cast (c := 1 + (s.calls + (rest.calls + 0))) (by omega) ?_
    refine Agrees.expand fun n => ?_
    show Agrees n _ _ (do
      let rs ← s.inlined.denote l {}
      let rr ← rest.inlined.denote rs.2 .default nxt
      .ok (withScripts .emptyRow rs.1 :: rr.1, rr.2))
    refine (scripts_inlined s h3 l _ {} h).bind fun rs l2 n2 g2 => ?_
    refine (form_inlined rest h4 l2 _ _ nxt g2).bind fun rr l3 n3 g3 => ?_
    exact .ok g3
theorem base_inlined : ∀ (b : Base), b.SameClasses → ∀ (l : Loc) (n : Nat) (prev nxt : Class), l.left = 0 →
    Agrees n b.calls (b.denote (atLeft n l) prev nxt) (b.inlined.denote l prev nxt)
  | .atom t, _, l, n, prev, nxt, h => by
    simp only [Base.inlined, Base.calls, Base.denote]
    exact .ok h
  | .number d more, _, l, n, prev, nxt, h => by
    simp only [Base.inlined, Base.calls, Base.denote]
    exact .ok h
  | .group f, hc, l, n, prev, nxt, h => by
    simp only [Base.inlined, Base.calls, Base.denote]
    refine Agrees.cast (c := f.calls + 0) (by omega) ?_
    exact (form_inlined f hc l n _ _ h).bind fun r l1 n1 g1 => Agrees.ok (l := { l1 with style := l.style }) g1
  | .frac attr isBinom num den, hc, l, n, prev, nxt, h => by
    obtain ⟨h1, h2⟩ := hc
    simp only [Base.inlined, Base.calls, Base.denote]
    refine Agrees.cast (c := num.calls + (den.calls + 0)) (by omega) ?_
    refine (arg_inlined num h1 true { l with style := fractionStyle l.style attr } _ h).bind fun r l1 n1 g1 => ?_
    exact (arg_inlined den h2 true l1 _ g1).bind fun r l2 n2 g2 => Agrees.ok (l := { l2 with style := l.style }) g2
  | .genfrac x num den, hc, l, n, prev, nxt, h => by
    obtain ⟨h1, h2⟩ := hc
    simp only [Base.inlined, Base.calls, Base.denote]
    refine Agrees.cast (c := num.calls + (den.calls + 0)) (by omega) ?_
    refine Agrees.bindV fun _ => Agrees.bindV fun _ => Agrees.bindV fun _ => Agrees.bindV fun _ => ?_
    refine (arg_inlined num h1 true l _ h).bind fun r l1 n1 g1 => ?_
    exact (arg_inlined den h2 true l1 _ g1).bind fun r l2 n2 g2 => Agrees.ok g2
  | .stackTok isOver symbol t, hc, l, n, prev, nxt, h => by
    simp only [Base.inlined, Base.calls, Base.denote]
    refine Agrees.cast (c := symbol.calls + 0) (by omega) ?_
    exact (arg_inlined symbol hc true { l with style := .script } n h).bind fun r l1 n1 g1 =>
      Agrees.ok (l := { l1 with style := l.style }) g1
  | .stackGroup isOver symbol f, hc, l, n, prev, nxt, h => by
    obtain ⟨h1, h2⟩ := hc
    simp only [Base.inlined, Base.calls, Base.denote]
    refine Agrees.cast (c := symbol.calls + (f.calls + 0)) (by omega) ?_
    refine (arg_inlined symbol h1 true { l with style := .script } n h).bind fun r l1 n1 g1 => ?_
    exact (form_inlined f h2 { l1 with style := l.style, stacked := true } n1 _ _ g1).bind fun rf l2 n2 g2 =>
      Agrees.ok (l := { l2 with style := l.style, stacked := l1.stacked }) g2
  | .arrow rel over, hc, l, n, prev, nxt, h => by
    simp only [Base.inlined, Base.calls, Base.denote]
    refine Agrees.cast (c := over.calls + 0) (by omega) ?_
    exact (arg_inlined over hc true { l with style := .script, stacked := true } n h).bind fun r l1 n1 g1 =>
      Agrees.ok (l := { l1 with style := l.style, stacked := l.stacked }) g1
  | .arrowUnder rel under over, hc, l, n, prev, nxt, h => by
    obtain ⟨h1, h2⟩ := hc
    simp only [Base.inlined, Base.calls, Base.denote]
    refine Agrees.cast (c := under.calls + (over.calls + 0)) (by omega) ?_
    refine (form_inlined under h1 { l with style := .script, stacked := true } n _ _ h).bind fun r l1 n1 g1 => ?_
    exact (arg_inlined over h2 true { l1 with style := .script } n1 g1).bind fun rf l2 n2 g2 =>
      Agrees.ok (l := { l2 with style := l.style, stacked := l.stacked }) g2
  | .cramped st f, hc, l, n, prev, nxt, h => by
    simp only [Base.inlined, Base.calls, Base.denote]
    refine Agrees.cast (c := f.calls + 0) (by omega) ?_
    exact (form_inlined f hc l n _ _ h).bind fun r l1 n1 g1 => Agrees.ok (l := { l1 with style := l.style }) g1
  | .sqrt a, hc, l, n, prev, nxt, h => by
    simp only [Base.inlined, Base.calls, Base.denote]
    refine Agrees.cast (c := a.calls + 0) (by omega) ?_
    exact (arg_inlined a hc true l n h).bind fun r l1 n1 g1 => .ok g1
  | .root degree a, hc, l, n, prev, nxt, h => by
    obtain ⟨h1, h2⟩ := hc
    simp only [Base.inlined, Base.calls, Base.denote]
    refine Agrees.cast (c := degree.calls + (a.calls + 0)) (by omega) ?_
    refine (form_inlined degree h1 l _ _ _ h).bind fun r l1 n1 g1 => ?_
    exact (arg_inlined a h2 true { l1 with style := l.style } _ g1).bind fun r l2 n2 g2 => .ok g2
  | .deco d a, hc, l, n, prev, nxt, h => by
    simp only [Base.inlined, Base.calls, Base.denote]
    refine Agrees.cast (c := a.calls + 0) (by omega) ?_
    exact (arg_inlined a hc d.reset l n h).bind fun r l1 n1 g1 => .ok g1
  | .brace x isOver a, hc, l, n, prev, nxt, h => by
    simp only [Base.inlined, Base.calls, Base.denote]
    refine Agrees.cast (c := a.calls + 0) (by omega) ?_
    exact (arg_inlined a hc false l n h).bind fun r l1 n1 g1 => .ok g1
  | .braceLabel x isOver a b, hc, l, n, prev, nxt, h => by
    obtain ⟨h1, h2⟩ := hc
    simp only [Base.inlined, Base.calls, Base.denote]
    refine Agrees.cast (c := a.calls + (b.calls + 0)) (by omega) ?_
    refine (arg_inlined a h1 false l n h).bind fun r l1 n1 g1 => ?_
    exact (arg_inlined b h2 true l1 _ g1).bind fun r l2 n2 g2 => .ok g2
  | .prescript sup sub a, hc, l, n, prev, nxt, h => by
    obtain ⟨h1, h2, h3⟩ := hc
    simp only [Base.inlined, Base.calls, Base.denote]
    refine Agrees.cast (c := sup.calls + (sub.calls + (a.calls + 0))) (by omega) ?_
    refine (arg_inlined sup h1 true l n h).bind fun r l1 n1 g1 => ?_
    refine (arg_inlined sub h2 true l1 _ g1).bind fun r l2 n2 g2 => ?_
    exact (arg_inlined a h3 true l2 _ g2).bind fun r l2 n2 g2 => .ok g2
  | .leaf x, hc, l, n, prev, nxt, h => by
    simp only [Base.inlined, Base.calls, Base.denote]
    exact Agrees.bindV fun _ => .ok h
  | .mathClass kind b, hc, l, n, prev, nxt, h => by
    simp only [Base.inlined, Base.calls, Base.denote]
    refine Agrees.cast (c := b.calls + 0) (by omega) ?_
    exact (base_inlined b hc l n prev nxt h).bind fun r l1 n1 g1 => .ok g1
  | .overlay o b, hc, l, n, prev, nxt, h => by
    simp only [Base.inlined, Base.calls, Base.denote]
    refine Agrees.cast (c := b.calls + 0) (by omega) ?_
    exact (base_inlined b hc l n prev nxt h).bind fun r l1 n1 g1 => Agrees.bindV fun _ => .ok g1
  | .fence lt rt f, hc, l, n, prev, nxt, h => by
    simp only [Base.inlined, Base.calls, Base.denote]
    refine Agrees.cast (c := f.calls + 0) (by omega) ?_
    refine Agrees.bindV fun _ => ?_
    refine (form_inlined f hc l n _ _ h).bind fun r l1 n1 g1 => ?_
    exact Agrees.bindV fun _ => Agrees.ok (l := { l1 with style := l.style }) g1
  | .env e e' o f, hc, l, n, prev, nxt, h => by
    simp only [Base.inlined, Base.calls, Base.denote]
    refine Agrees.cast (c := f.calls + 0) (by omega) ?_
    refine Agrees.bindV fun spec => ?_
    exact (form_inlined f hc { l with style := envStyle e, env := envState e } n _ _ h).bind fun r l1 n1 g1 =>
      agrees_endEnv e e' spec o.line r g1 rfl rfl
theorem arg_inlined : ∀ (a : Arg), a.SameClasses → ∀ (reset : Bool) (l : Loc) (n : Nat), l.left = 0 →
    Agrees n a.calls (a.denote reset (atLeft n l)) (a.inlined.denote reset l)
  | .tok t, _, reset, l, n, h => by
    simp only [Arg.inlined, Arg.calls, Arg.denote]
    cases t.unwrapMath <;> exact .ok h
  | .braces f, hc, reset, l, n, h => by
    simp only [Arg.inlined, Arg.calls, Arg.denote]
    refine Agrees.cast (c := f.calls + 0) (by omega) ?_
    exact (form_inlined f hc l n _ _ h).bind fun r l1 n1 g1 => Agrees.ok (l := { l1 with style := l.style }) g1
theorem scripts_inlined : ∀ (s : Scripts), s.SameClasses → ∀ (l : Loc) (n : Nat) (b : Bounds), l.left = 0 →
    Agrees n s.calls (s.denote (atLeft n l) b) (s.inlined.denote l b)
  | .nil, _, l, n, b, h => by
    simp only [Scripts.inlined, Scripts.calls, Scripts.denote]
    exact .ok h
  | .sub a s, hc, l, n, b, h => by
    obtain ⟨h1, h2⟩ := hc
    simp only [Scripts.inlined, Scripts.calls, Scripts.denote]
    refine Agrees.cast (c := a.calls + s.calls) (by omega) ?_
    refine (arg_inlined a h1 true { l with style := scriptStyle l.style } _ h).bind fun r l1 n1 g1 => ?_
    exact Agrees.bindV fun b => scripts_inlined s h2 { l1 with style := l.style } n1 b g1
  | .sup a s, hc, l, n, b, h => by
    obtain ⟨h1, h2⟩ := hc
    simp only [Scripts.inlined, Scripts.calls, Scripts.denote]
    refine Agrees.cast (c := a.calls + s.calls) (by omega) ?_
    refine (arg_inlined a h1 true { l with style := scriptStyle l.style } _ h).bind fun r l1 n1 g1 => ?_
    exact Agrees.bindV fun b => scripts_inlined s h2 { l1 with style := l.style } n1 b g1
  | .primes t ts s, hc, l, n, b, h => by
    simp only [Scripts.inlined, Scripts.calls, Scripts.denote]
    exact Agrees.bindV fun b => scripts_inlined s hc l n b h
  | .primesSup t ts a s, hc, l, n, b, h => by
    obtain ⟨h1, h2⟩ := hc
    simp only [Scripts.inlined, Scripts.calls, Scripts.denote]
    refine Agrees.cast (c := a.calls + s.calls) (by omega) ?_
    refine (arg_inlined a h1 true { l with style := scriptStyle l.style } _ h).bind fun r l1 n1 g1 => ?_
    exact Agrees.bindV fun b => scripts_inlined s h2 { l1 with style := l.style } n1 b g1
end

mutual
theorem form_inlined_twice : ∀ f : Form, f.inlined.inlined = f.inlined
  | .nil => by simp only [Form.inlined]
  | .item b s rest => by
    simp only [Form.inlined, base_inlined_twice b, scripts_inlined_twice s, form_inlined_twice rest]
  | .bigOp _ s rest | .func _ _ s rest => by
    simp only [Form.inlined, scripts_inlined_twice s, form_inlined_twice rest]
  | .amp rest | .newLine _ rest | .noNumber rest | .tag _ _ rest | .label _ rest | .style _ rest
  | .color _ rest => by
    simp only [Form.inlined, form_inlined_twice rest]
  | .call _ _ _ cont => by simp only [Form.inlined, form_inlined_twice cont]
  | .emptyCall _ _ s rest => by
    simp only [Form.inlined, Base.inlined, scripts_inlined_twice s, form_inlined_twice rest]
theorem base_inlined_twice : ∀ b : Base, b.inlined.inlined = b.inlined
  | .atom _ | .number _ _ | .leaf _ => by simp only [Base.inlined]
  | .mathClass _ b | .overlay _ b => by simp only [Base.inlined, base_inlined_twice b]
  | .braceLabel _ _ a b => by simp only [Base.inlined, arg_inlined_twice a, arg_inlined_twice b]
  | .prescript a b c => by simp only [Base.inlined, arg_inlined_twice a, arg_inlined_twice b, arg_inlined_twice c]
  | .group f | .fence _ _ f | .env _ _ _ f | .cramped _ f => by simp only [Base.inlined, form_inlined_twice f]
  | .frac _ _ num den | .genfrac _ num den => by simp only [Base.inlined, arg_inlined_twice num, arg_inlined_twice den]
  | .sqrt a | .deco _ a | .brace _ _ a | .stackTok _ a _ | .arrow _ a => by simp only [Base.inlined, arg_inlined_twice a]
  | .root degree a | .stackGroup _ a degree | .arrowUnder _ degree a => by simp only [Base.inlined, form_inlined_twice degree, arg_inlined_twice a]
theorem arg_inlined_twice : ∀ a : Arg, a.inlined.inlined = a.inlined
  | .tok _ => by simp only [Arg.inlined]
  | .braces f => by simp only [Arg.inlined, form_inlined_twice f]
theorem scripts_inlined_twice : ∀ s : Scripts, s.inlined.inlined = s.inlined
  | .nil => by simp only [Scripts.inlined]
  | .sub a s | .sup a s | .primesSup _ _ a s => by
    simp only [Scripts.inlined, arg_inlined_twice a, scripts_inlined_twice s]
  | .primes _ _ s => by simp only [Scripts.inlined, scripts_inlined_twice s]
end

mutual
theorem form_inlined_linked (M : Macros) : ∀ f : Form, f.inlined.linked M
  | .nil => by simp only [Form.inlined, Form.linked]
  | .item b s rest => by
    simp only [Form.inlined, Form.linked]
    exact ⟨base_inlined_linked M b, scripts_inlined_linked M s, form_inlined_linked M rest⟩
  | .bigOp _ s rest | .func _ _ s rest => by
    simp only [Form.inlined, Form.linked]
    exact ⟨scripts_inlined_linked M s, form_inlined_linked M rest⟩
  | .amp rest | .newLine _ rest | .noNumber rest | .tag _ _ rest | .label _ rest | .style _ rest
  | .color _ rest => by
    simp only [Form.inlined, Form.linked]
    exact form_inlined_linked M rest
  | .call _ _ _ cont => by
    simp only [Form.inlined]
    exact form_inlined_linked M cont
  | .emptyCall _ _ s rest => by
    simp only [Form.inlined, Form.linked, Base.linked]
    exact ⟨trivial, scripts_inlined_linked M s, form_inlined_linked M rest⟩
theorem base_inlined_linked (M : Macros) : ∀ b : Base, b.inlined.linked M
  | .atom _ | .number _ _ | .leaf _ => by simp only [Base.inlined, Base.linked]
  | .mathClass _ b | .overlay _ b => by
    simp only [Base.inlined, Base.linked]
    exact base_inlined_linked M b
  | .braceLabel _ _ a b => by
    simp only [Base.inlined, Base.linked]
    exact ⟨arg_inlined_linked M a, arg_inlined_linked M b⟩
  | .prescript a b c => by
    simp only [Base.inlined, Base.linked]
    exact ⟨arg_inlined_linked M a, arg_inlined_linked M b, arg_inlined_linked M c⟩
  | .group f | .fence _ _ f | .env _ _ _ f | .cramped _ f => by
    simp only [Base.inlined, Base.linked]
    exact form_inlined_linked M f
  | .stackGroup _ a f => by
    simp only [Base.inlined, Base.linked]
    exact ⟨arg_inlined_linked M a, form_inlined_linked M f⟩
  | .frac _ _ num den | .genfrac _ num den => by
    simp only [Base.inlined, Base.linked]
    exact ⟨arg_inlined_linked M num, arg_inlined_linked M den⟩
  | .sqrt a | .deco _ a | .brace _ _ a | .stackTok _ a _ | .arrow _ a => by
    simp only [Base.inlined, Base.linked]
    exact arg_inlined_linked M a
  | .root degree a | .arrowUnder _ degree a => by
    simp only [Base.inlined, Base.linked]
    exact ⟨form_inlined_linked M degree, arg_inlined_linked M a⟩
theorem arg_inlined_linked (M : Macros) : ∀ a : Arg, a.inlined.linked M
  | .tok _ => by simp only [Arg.inlined, Arg.linked]
  | .braces f => by
    simp only [Arg.inlined, Arg.linked]
    exact form_inlined_linked M f
theorem scripts_inlined_linked (M : Macros) : ∀ s : Scripts, s.inlined.linked M
  | .nil => by simp only [Scripts.inlined, Scripts.linked]
  | .sub a s | .sup a s | .primesSup _ _ a s => by
    simp only [Scripts.inlined, Scripts.linked]
    exact ⟨arg_inlined_linked M a, scripts_inlined_linked M s⟩
  | .primes _ _ s => by
    simp only [Scripts.inlined, Scripts.linked]
    exact scripts_inlined_linked M s
end

mutual
theorem form_inlined_calls : ∀ f : Form, f.inlined.calls = 0 ∧ f.inlined.SameClasses
  | .nil => by simp only [Form.inlined, Form.calls, Form.SameClasses, and_self]
  | .item b s rest => by
    obtain ⟨b1, b2⟩ := base_inlined_calls b
    obtain ⟨s1, s2⟩ := scripts_inlined_calls s
    obtain ⟨r1, r2⟩ := form_inlined_calls rest
    simp only [Form.inlined, Form.calls, Form.SameClasses, scripts_inlined_twice, form_inlined_twice]
    exact ⟨by omega, fun _ _ => rfl, b2, s2, r2⟩
  | .bigOp _ s rest => by
    obtain ⟨s1, s2⟩ := scripts_inlined_calls s
    obtain ⟨r1, r2⟩ := form_inlined_calls rest
    simp only [Form.inlined, Form.calls, Form.SameClasses, scripts_inlined_twice, form_inlined_twice]
    exact ⟨by omega, fun _ => rfl, fun _ => rfl, s2, r2⟩
  | .func _ _ s rest => by
    obtain ⟨s1, s2⟩ := scripts_inlined_calls s
    obtain ⟨r1, r2⟩ := form_inlined_calls rest
    simp only [Form.inlined, Form.calls, Form.SameClasses, form_inlined_twice]
    exact ⟨by omega, fun _ => rfl, s2, r2⟩
  | .amp rest | .newLine _ rest | .noNumber rest | .tag _ _ rest | .label _ rest | .style _ rest
  | .color _ rest => by
    simp only [Form.inlined, Form.calls, Form.SameClasses]
    exact form_inlined_calls rest
  | .call _ _ _ cont => by
    simp only [Form.inlined]
    exact form_inlined_calls cont
  | .emptyCall _ _ s rest => by
    obtain ⟨s1, s2⟩ := scripts_inlined_calls s
    obtain ⟨r1, r2⟩ := form_inlined_calls rest
    simp only [Form.inlined, Form.calls, Form.SameClasses, Base.calls, Base.SameClasses, scripts_inlined_twice,
      form_inlined_twice]
    exact ⟨by omega, fun _ _ => rfl, trivial, s2, r2⟩
theorem base_inlined_calls : ∀ b : Base, b.inlined.calls = 0 ∧ b.inlined.SameClasses
  | .atom _ | .number _ _ | .leaf _ => by simp only [Base.inlined, Base.calls, Base.SameClasses, and_self]
  | .mathClass _ b | .overlay _ b => by
    simp only [Base.inlined, Base.calls, Base.SameClasses]
    exact base_inlined_calls b
  | .braceLabel _ _ a b => by
    obtain ⟨s1, s2⟩ := arg_inlined_calls a
    obtain ⟨r1, r2⟩ := arg_inlined_calls b
    simp only [Base.inlined, Base.calls, Base.SameClasses]
    exact ⟨by omega, s2, r2⟩
  | .prescript a b c => by
    obtain ⟨s1, s2⟩ := arg_inlined_calls a
    obtain ⟨r1, r2⟩ := arg_inlined_calls b
    obtain ⟨t1, t2⟩ := arg_inlined_calls c
    simp only [Base.inlined, Base.calls, Base.SameClasses]
    exact ⟨by omega, s2, r2, t2⟩
  | .group f | .fence _ _ f | .env _ _ _ f | .cramped _ f => by
    simp only [Base.inlined, Base.calls, Base.SameClasses]
    exact form_inlined_calls f
  | .stackGroup _ a f => by
    obtain ⟨s1, s2⟩ := form_inlined_calls f
    obtain ⟨r1, r2⟩ := arg_inlined_calls a
    simp only [Base.inlined, Base.calls, Base.SameClasses]
    exact ⟨by omega, r2, s2⟩
  | .frac _ _ num den | .genfrac _ num den => by
    obtain ⟨s1, s2⟩ := arg_inlined_calls num
    obtain ⟨r1, r2⟩ := arg_inlined_calls den
    simp only [Base.inlined, Base.calls, Base.SameClasses]
    exact ⟨by omega, s2, r2⟩
  | .sqrt a | .deco _ a | .brace _ _ a | .stackTok _ a _ | .arrow _ a => by
    simp only [Base.inlined, Base.calls, Base.SameClasses]
    exact arg_inlined_calls a
  | .root degree a | .arrowUnder _ degree a => by
    obtain ⟨s1, s2⟩ := form_inlined_calls degree
    obtain ⟨r1, r2⟩ := arg_inlined_calls a
    simp only [Base.inlined, Base.calls, Base.SameClasses]
    exact ⟨by omega, s2, r2⟩
theorem arg_inlined_calls : ∀ a : Arg, a.inlined.calls = 0 ∧ a.inlined.SameClasses
  | .tok _ => by simp only [Arg.inlined, Arg.calls, Arg.SameClasses, and_self]
  | .braces f => by
    simp only [Arg.inlined, Arg.calls, Arg.SameClasses]
    exact form_inlined_calls f
theorem scripts_inlined_calls : ∀ s : Scripts, s.inlined.calls = 0 ∧ s.inlined.SameClasses
  | .nil => by simp only [Scripts.inlined, Scripts.calls, Scripts.SameClasses, and_self]
  | .sub a s | .sup a s | .primesSup _ _ a s => by
    obtain ⟨s1, s2⟩ := arg_inlined_calls a
    obtain ⟨r1, r2⟩ := scripts_inlined_calls s
    simp only [Scripts.inlined, Scripts.calls, Scripts.SameClasses]
    exact ⟨by omega, s2, r2⟩
  | .primes _ _ s => by
    simp only [Scripts.inlined, Scripts.calls, Scripts.SameClasses]
    exact scripts_inlined_calls s
end

/-- The meaning of a formula, compared with that of the formula in which the calls are written out -/
theorem value_inlined {f : Form} (hc : f.SameClasses) (left : Nat) (g : GlobalState) (display : MathDisplay) :
    match f.inlined.value left g display with
    | .error e => f.calls ≤ left → f.value left g display = .error e
    | .ok (nodes, l) => f.value left g display =
      if f.calls ≤ left then .ok (nodes, atLeft (left - f.calls) l) else .error .tooManyExpansions := by
  have h1 := form_inlined f hc ⟨display.style, {}, g.equationCount, g.labelMap, 0, false⟩ left .opening .ending rfl
  have h2 := form_inlined f.inlined (form_inlined_calls f).2 ⟨display.style, {}, g.equationCount, g.labelMap, 0, false⟩ left
    .opening .ending rfl
  rw [form_inlined_twice, (form_inlined_calls f).1] at h2
  unfold Agrees at h1 h2
  unfold Form.value
  cases hx : f.inlined.denote ⟨display.style, {}, g.equationCount, g.labelMap, 0, false⟩ .opening .ending with
  | error e =>
    rw [hx] at h1 h2
    have h2 : f.inlined.denote ⟨display.style, {}, g.equationCount, g.labelMap, left, false⟩ .opening .ending = .error e :=
      h2 (Nat.zero_le _)
    rw [h2]
    exact h1
  | ok p =>
    obtain ⟨nodes, l⟩ := p
    rw [hx] at h1 h2
    have h2 : f.inlined.denote ⟨display.style, {}, g.equationCount, g.labelMap, left, false⟩ .opening .ending =
      .ok (nodes, atLeft left l) := h2.2
    rw [h2]
    exact h1.2

theorem loosens_spec {xs ys : List Tk} (h : loosens xs ys = true) : Loosens xs ys := by
  fun_induction loosens xs ys with
  | case1 => exact .nil
  | case2 x xs y ys ih =>
    simp only [Bool.and_eq_true, Bool.or_eq_true, Bool.not_eq_true'] at h
    obtain ⟨x, b⟩ := x
    obtain ⟨y, b'⟩ := y
    cases sameTok_eq h.1.1
    refine .cons (fun hb => ?_) (ih h.2)
    rcases h.1.2 with h | h
    · dsimp only at h
      rw [hb] at h
      cases h
    · exact h
  | case3 => cases h

mutual
theorem form_links {M : Macros} : ∀ f : Form, f.links M = true → f.linked M
  | .nil, _ => by simp only [Form.linked]
  | .item b s rest, h => by
    simp only [Form.links, Bool.and_eq_true] at h
    exact ⟨base_links b h.1.1, scripts_links s h.1.2, form_links rest h.2⟩
  | .bigOp _ s rest, h | .func _ _ s rest, h => by
    simp only [Form.links, Bool.and_eq_true] at h
    exact ⟨scripts_links s h.1, form_links rest h.2⟩
  | .amp rest, h | .newLine _ rest, h | .noNumber rest, h | .tag _ _ rest, h | .label _ rest, h
  | .style _ rest, h | .color _ rest, h => by
    simp only [Form.links] at h
    exact form_links rest h
  | .call t args k cont, h => by
    simp only [Form.links, Bool.and_eq_true] at h
    refine ⟨?_, form_links cont h.2⟩
    cases hm : M t with
    | none => rw [hm] at h; cases h.1
    | some p =>
      obtain ⟨n, body⟩ := p
      have h := h.1
      rw [hm] at h
      simp only [Bool.and_eq_true, beq_iff_eq, Bool.not_eq_true', List.isEmpty_eq_false_iff, decide_eq_true_eq,
        List.all_eq_true] at h
      obtain ⟨⟨⟨⟨h1, h2⟩, h3⟩, h4⟩, h5⟩ := h
      subst h1
      exact ⟨body, rfl, h2, h3, fun i hi => of_decide_eq_true (h4 _ hi), loosens_spec h5⟩
  | .emptyCall t args s rest, h => by
    simp only [Form.links, Bool.and_eq_true] at h
    refine ⟨?_, scripts_links s h.1.2, form_links rest h.2⟩
    cases hm : M t with
    | none => rw [hm] at h; cases h.1.1
    | some p =>
      obtain ⟨n, body⟩ := p
      have h := h.1.1
      rw [hm] at h
      simp only [Bool.and_eq_true, beq_iff_eq, List.isEmpty_iff, decide_eq_true_eq] at h
      obtain ⟨⟨h1, h2⟩, h3⟩ := h
      subst h1 h2
      exact ⟨rfl, h3⟩
theorem base_links {M : Macros} : ∀ b : Base, b.links M = true → b.linked M
  | .atom _, _ | .number _ _, _ | .leaf _, _ => by simp only [Base.linked]
  | .mathClass _ b, h | .overlay _ b, h => by
    simp only [Base.links] at h
    exact base_links b h
  | .braceLabel _ _ a b, h => by
    simp only [Base.links, Bool.and_eq_true] at h
    exact ⟨arg_links a h.1, arg_links b h.2⟩
  | .prescript a b c, h => by
    simp only [Base.links, Bool.and_eq_true] at h
    exact ⟨arg_links a h.1.1, arg_links b h.1.2, arg_links c h.2⟩
  | .group f, h | .fence _ _ f, h | .env _ _ _ f, h | .cramped _ f, h => by
    simp only [Base.links] at h
    exact form_links f h
  | .stackGroup _ a f, h => by
    simp only [Base.links, Bool.and_eq_true] at h
    exact ⟨arg_links a h.1, form_links f h.2⟩
  | .frac _ _ num den, h | .genfrac _ num den, h => by
    simp only [Base.links, Bool.and_eq_true] at h
    exact ⟨arg_links num h.1, arg_links den h.2⟩
  | .sqrt a, h | .deco _ a, h | .brace _ _ a, h | .stackTok _ a _, h | .arrow _ a, h => by
    simp only [Base.links] at h
    exact arg_links a h
  | .root degree a, h | .arrowUnder _ degree a, h => by
    simp only [Base.links, Bool.and_eq_true] at h
    exact ⟨form_links degree h.1, arg_links a h.2⟩
theorem arg_links {M : Macros} : ∀ a : Arg, a.links M = true → a.linked M
  | .tok _, _ => by simp only [Arg.linked]
  | .braces f, h => by
    simp only [Arg.links] at h
    exact form_links f h
theorem scripts_links {M : Macros} : ∀ s : Scripts, s.links M = true → s.linked M
  | .nil, _ => by simp only [Scripts.linked]
  | .sub a s, h | .sup a s, h | .primesSup _ _ a s, h => by
    simp only [Scripts.links, Bool.and_eq_true] at h
    exact ⟨arg_links a h.1, scripts_links s h.2⟩
  | .primes _ _ s, h => by
    simp only [Scripts.links] at h
    exact scripts_links s h
end

end Verif

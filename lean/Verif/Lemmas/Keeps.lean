import Verif.Lemmas.Rows
/-! What a formula does not change: the style, and whether it is in the target of `\overset`. -/
namespace Verif
open Model Spec

/-- The style is the same, and the place is as before in the target of `\overset` or not. -/
def Kept (l l' : Loc) : Prop := l'.style = l.style ∧ l'.stacked = l.stacked

theorem Kept.rfl' {l : Loc} : Kept l l := ⟨rfl, rfl⟩
theorem Kept.trans {l l' l'' : Loc} (h : Kept l l') (h' : Kept l' l'') : Kept l l'' :=
  ⟨h'.1.trans h.1, h'.2.trans h.2⟩

theorem endRow_kept {n : RowState} {last : Bool} {l : Loc} {info : Option RowLabelInfo} {n' : RowState} {l' : Loc}
    (h : endRow n last l = .ok (info, n', l')) : Kept l l' := by
  unfold endRow at h
  split at h
  · cases h
  · cases h; exact ⟨rfl, rfl⟩

theorem lineBreak_kept {line : Option LineType} {l l' : Loc} {r : Class × Node} (h : lineBreak line l = .ok (r, l')) :
    Kept l l' := by
  unfold lineBreak at h
  split at h
  · cases h; exact ⟨rfl, rfl⟩
  split at h
  · cases h; exact ⟨rfl, rfl⟩
  split at h
  · cases h
  obtain ⟨⟨a, b, c⟩, h1, h⟩ := bind_ok h
  have := endRow_kept h1
  cases h
  exact this

theorem nextRow_kept {line : Option LineType} {l l' : Loc} {r : Class × Node} (h : nextRow line l = .ok (r, l')) :
    Kept l l' := by
  unfold nextRow at h
  split at h
  · exact lineBreak_kept h
  split at h
  · exact lineBreak_kept h
  obtain ⟨a, h1, h⟩ := bind_ok h
  cases h

theorem putTag_kept {paren : Bool} {text : Str} {l l' : Loc} (h : putTag paren text l = .ok l') : Kept l l' := by
  unfold putTag at h
  split at h
  · cases h; exact ⟨rfl, rfl⟩
  · cases h

theorem putLabel_kept {text : Str} {l l' : Loc} (h : putLabel text l = .ok l') : Kept l l' := by
  unfold putLabel at h
  split at h
  · split at h
    · cases h
    · cases h; exact ⟨rfl, rfl⟩
  · cases h

theorem expandOne_kept {l l' : Loc} (h : expandOne l = .ok l') : Kept l l' := by
  unfold expandOne at h
  split at h
  · cases h
  · cases h; exact ⟨rfl, rfl⟩

theorem endEnv_kept {e e' : Env} {spec : Option ArraySpec} {line : Option LineType} {ns : List Node} {l0 l l' : Loc}
    {r : Class × Node} (hk : l.stacked = l0.stacked) (h : endEnv e e' spec line ns l0 l = .ok (r, l')) : Kept l0 l' := by
  unfold endEnv at h
  split at h
  · cases h
  dsimp only at h
  split at h
  · split at h
    · cases h; exact ⟨rfl, hk⟩
    · cases h
  · obtain ⟨⟨a, b, c⟩, h1, h⟩ := bind_ok h
    have := endRow_kept h1
    dsimp only at h
    split at h
    · cases h; exact ⟨this.1, this.2.trans hk⟩
    · cases h

mutual
theorem form_kept : (f : Form) → ∀ ⦃l l' : Loc⦄ ⦃p nxt : Class⦄ ⦃ns : List Node⦄, f.denote l p nxt = .ok (ns, l') → Kept l l'
  | .nil => by intro l l' p nxt ns h; cases h; exact ⟨rfl, rfl⟩
  | .item b s rest => by
    intro l l' p nxt ns h
    unfold Form.denote at h
    obtain ⟨r1, h1, h⟩ := bind_ok h
    obtain ⟨r2, h2, h⟩ := bind_ok h
    obtain ⟨r3, h3, h⟩ := bind_ok h
    cases h
    exact ((base_kept b (l' := r1.2) (r := r1.1) h1).trans (scripts_kept s (l' := r2.2) (b' := r2.1) h2)).trans
      (form_kept rest (l' := r3.2) (ns := r3.1) h3)
  | .bigOp o s rest => by
    intro l l' p nxt ns h
    unfold Form.denote at h
    split at h <;>
    · obtain ⟨r2, h2, h⟩ := bind_ok h
      obtain ⟨r3, h3, h⟩ := bind_ok h
      cases h
      exact (scripts_kept s (l' := r2.2) (b' := r2.1) h2).trans (form_kept rest (l' := r3.2) (ns := r3.1) h3)
  | .func x lim s rest => by
    intro l l' p nxt ns h
    unfold Form.denote at h
    obtain ⟨r2, h2, h⟩ := bind_ok h
    obtain ⟨r3, h3, h⟩ := bind_ok h
    cases h
    exact (scripts_kept s (l' := r2.2) (b' := r2.1) h2).trans (form_kept rest (l' := r3.2) (ns := r3.1) h3)
  | .amp rest => by
    intro l l' p nxt ns h
    unfold Form.denote at h
    split at h
    · obtain ⟨r3, h3, h⟩ := bind_ok h
      cases h
      exact form_kept rest (l' := r3.2) (ns := r3.1) h3
    · cases h
  | .newLine line rest => by
    intro l l' p nxt ns h
    unfold Form.denote at h
    obtain ⟨r1, h1, h⟩ := bind_ok h
    obtain ⟨r3, h3, h⟩ := bind_ok h
    cases h
    exact (nextRow_kept (l' := r1.2) (r := r1.1) h1).trans (form_kept rest (l' := r3.2) (ns := r3.1) h3)
  | .noNumber rest => by
    intro l l' p nxt ns h
    unfold Form.denote at h
    have g : Kept (suppressNumber l) l' := form_kept rest h
    exact g
  | .tag paren text rest => by
    intro l l' p nxt ns h
    unfold Form.denote at h
    obtain ⟨r1, h1, h⟩ := bind_ok h
    exact (putTag_kept h1).trans (form_kept rest h)
  | .label text rest => by
    intro l l' p nxt ns h
    unfold Form.denote at h
    obtain ⟨r1, h1, h⟩ := bind_ok h
    exact (putLabel_kept h1).trans (form_kept rest h)
  | .style st rest => by
    intro l l' p nxt ns h
    unfold Form.denote at h
    obtain ⟨r1, h1, h⟩ := bind_ok h
    cases h
    exact ⟨rfl, (form_kept rest (l' := r1.2) (ns := r1.1) h1).2⟩
  | .color name rest => by
    intro l l' p nxt ns h
    unfold Form.denote at h
    obtain ⟨c, h0, h⟩ := bind_ok h
    obtain ⟨r1, h1, h⟩ := bind_ok h
    cases h
    exact ⟨rfl, (form_kept rest (l' := r1.2) (ns := r1.1) h1).2⟩
  | .call _ _ _ cont => by
    intro l l' p nxt ns h
    unfold Form.denote at h
    obtain ⟨l1, h1, h⟩ := bind_ok h
    exact (expandOne_kept h1).trans (form_kept cont h)
  | .emptyCall _ _ s rest => by
    intro l l' p nxt ns h
    unfold Form.denote at h
    obtain ⟨l1, h1, h⟩ := bind_ok h
    obtain ⟨r2, h2, h⟩ := bind_ok h
    obtain ⟨r3, h3, h⟩ := bind_ok h
    cases h
    exact ((expandOne_kept h1).trans (scripts_kept s (l' := r2.2) (b' := r2.1) h2)).trans
      (form_kept rest (l' := r3.2) (ns := r3.1) h3)
theorem base_kept : (b : Base) → ∀ ⦃l l' : Loc⦄ ⦃p nxt : Class⦄ ⦃r : Class × Node⦄, b.denote l p nxt = .ok (r, l') → Kept l l'
  | .atom _ => by intro l l' p nxt r h; cases h; exact ⟨rfl, rfl⟩
  | .number _ _ => by intro l l' p nxt r h; cases h; exact ⟨rfl, rfl⟩
  | .group f => by
    intro l l' p nxt r h
    unfold Base.denote at h
    obtain ⟨r1, h1, h⟩ := bind_ok h
    cases h
    exact ⟨rfl, (form_kept f (l' := r1.2) (ns := r1.1) h1).2⟩
  | .frac attr isBinom num den => by
    intro l l' p nxt r h
    unfold Base.denote at h
    obtain ⟨r1, h1, h⟩ := bind_ok h
    obtain ⟨r2, h2, h⟩ := bind_ok h
    cases h
    exact ⟨rfl, (arg_kept den (l' := r2.2) (n := r2.1) h2).2.trans (arg_kept num (l' := r1.2) (n := r1.1) h1).2⟩
  | .genfrac x num den => by
    intro l l' p nxt r h
    unfold Base.denote at h
    obtain ⟨_, _, h⟩ := bind_ok h
    obtain ⟨_, _, h⟩ := bind_ok h
    obtain ⟨_, _, h⟩ := bind_ok h
    obtain ⟨_, _, h⟩ := bind_ok h
    obtain ⟨r1, h1, h⟩ := bind_ok h
    obtain ⟨r2, h2, h⟩ := bind_ok h
    cases h
    exact (arg_kept num (l' := r1.2) (n := r1.1) h1).trans (arg_kept den (l' := r2.2) (n := r2.1) h2)
  | .stackTok _ symbol _ => by
    intro l l' p nxt r h
    unfold Base.denote at h
    obtain ⟨r1, h1, h⟩ := bind_ok h
    cases h
    exact ⟨rfl, (arg_kept symbol (l' := r1.2) (n := r1.1) h1).2⟩
  | .stackGroup _ symbol f => by
    intro l l' p nxt r h
    unfold Base.denote at h
    obtain ⟨r1, h1, h⟩ := bind_ok h
    obtain ⟨r2, h2, h⟩ := bind_ok h
    cases h
    exact ⟨rfl, (arg_kept symbol (l' := r1.2) (n := r1.1) h1).2⟩
  | .arrow _ over => by
    intro l l' p nxt r h
    unfold Base.denote at h
    obtain ⟨r1, h1, h⟩ := bind_ok h
    cases h
    exact ⟨rfl, rfl⟩
  | .arrowUnder _ under over => by
    intro l l' p nxt r h
    unfold Base.denote at h
    obtain ⟨r1, h1, h⟩ := bind_ok h
    obtain ⟨r2, h2, h⟩ := bind_ok h
    cases h
    exact ⟨rfl, rfl⟩
  | .cramped _ f => by
    intro l l' p nxt r h
    unfold Base.denote at h
    obtain ⟨r1, h1, h⟩ := bind_ok h
    cases h
    exact ⟨rfl, (form_kept f (l' := r1.2) (ns := r1.1) h1).2⟩
  | .sqrt a => by
    intro l l' p nxt r h
    unfold Base.denote at h
    obtain ⟨r1, h1, h⟩ := bind_ok h
    cases h
    exact arg_kept a (l' := r1.2) (n := r1.1) h1
  | .root degree a => by
    intro l l' p nxt r h
    unfold Base.denote at h
    obtain ⟨r1, h1, h⟩ := bind_ok h
    obtain ⟨r2, h2, h⟩ := bind_ok h
    cases h
    have g1 := form_kept degree (l' := r1.2) (ns := r1.1) h1
    have g2 := arg_kept a (l' := r2.2) (n := r2.1) h2
    exact ⟨g2.1, g2.2.trans g1.2⟩
  | .deco _ a => by
    intro l l' p nxt r h
    unfold Base.denote at h
    obtain ⟨r1, h1, h⟩ := bind_ok h
    cases h
    exact arg_kept a (l' := r1.2) (n := r1.1) h1
  | .brace _ _ a => by
    intro l l' p nxt r h
    unfold Base.denote at h
    obtain ⟨r1, h1, h⟩ := bind_ok h
    cases h
    exact arg_kept a (l' := r1.2) (n := r1.1) h1
  | .braceLabel _ _ a label => by
    intro l l' p nxt r h
    unfold Base.denote at h
    obtain ⟨r1, h1, h⟩ := bind_ok h
    obtain ⟨r2, h2, h⟩ := bind_ok h
    cases h
    exact (arg_kept a (l' := r1.2) (n := r1.1) h1).trans (arg_kept label (l' := r2.2) (n := r2.1) h2)
  | .prescript sup sub a => by
    intro l l' p nxt r h
    unfold Base.denote at h
    obtain ⟨r1, h1, h⟩ := bind_ok h
    obtain ⟨r2, h2, h⟩ := bind_ok h
    obtain ⟨r3, h3, h⟩ := bind_ok h
    cases h
    exact ((arg_kept sup (l' := r1.2) (n := r1.1) h1).trans (arg_kept sub (l' := r2.2) (n := r2.1) h2)).trans
      (arg_kept a (l' := r3.2) (n := r3.1) h3)
  | .leaf x => by
    intro l l' p nxt r h
    unfold Base.denote at h
    obtain ⟨r1, h1, h⟩ := bind_ok h
    cases h
    exact ⟨rfl, rfl⟩
  | .mathClass _ b => by
    intro l l' p nxt r h
    unfold Base.denote at h
    obtain ⟨r1, h1, h⟩ := bind_ok h
    cases h
    exact base_kept b (l' := r1.2) (r := r1.1) h1
  | .overlay _ b => by
    intro l l' p nxt r h
    unfold Base.denote at h
    obtain ⟨r1, h1, h⟩ := bind_ok h
    obtain ⟨n, h2, h⟩ := bind_ok h
    cases h
    exact base_kept b (l' := r1.2) (r := r1.1) h1
  | .fence _ _ f => by
    intro l l' p nxt r h
    unfold Base.denote at h
    obtain ⟨o, h0, h⟩ := bind_ok h
    obtain ⟨r1, h1, h⟩ := bind_ok h
    obtain ⟨c, h2, h⟩ := bind_ok h
    cases h
    exact ⟨rfl, (form_kept f (l' := r1.2) (ns := r1.1) h1).2⟩
  | .env e e' o f => by
    intro l l' p nxt r h
    unfold Base.denote at h
    obtain ⟨spec, h0, h⟩ := bind_ok h
    obtain ⟨r1, h1, h⟩ := bind_ok h
    exact endEnv_kept (form_kept f (l' := r1.2) (ns := r1.1) h1).2 h
theorem arg_kept : (a : Arg) → ∀ ⦃reset : Bool⦄ ⦃l l' : Loc⦄ ⦃n : Node⦄, a.denote reset l = .ok (n, l') → Kept l l'
  | .tok t => by
    intro reset l l' n h
    unfold Arg.denote at h
    split at h <;> (cases h; exact ⟨rfl, rfl⟩)
  | .braces f => by
    intro reset l l' n h
    unfold Arg.denote at h
    obtain ⟨x, h1, h⟩ := bind_ok h
    cases h
    exact ⟨rfl, (form_kept f (l' := x.2) (ns := x.1) h1).2⟩
theorem scripts_kept : (s : Scripts) → ∀ ⦃l l' : Loc⦄ ⦃b b' : Bounds⦄, s.denote l b = .ok (b', l') → Kept l l'
  | .nil => by intro l l' b b' h; cases h; exact ⟨rfl, rfl⟩
  | .sub a s => by
    intro l l' b b' h
    unfold Scripts.denote at h
    obtain ⟨r1, h1, h⟩ := bind_ok h
    obtain ⟨b1, h2, h⟩ := bind_ok h
    have g1 := arg_kept a (l' := r1.2) (n := r1.1) h1
    have g2 := scripts_kept s h
    exact ⟨g2.1, g2.2.trans g1.2⟩
  | .sup a s => by
    intro l l' b b' h
    unfold Scripts.denote at h
    obtain ⟨r1, h1, h⟩ := bind_ok h
    obtain ⟨b1, h2, h⟩ := bind_ok h
    have g1 := arg_kept a (l' := r1.2) (n := r1.1) h1
    have g2 := scripts_kept s h
    exact ⟨g2.1, g2.2.trans g1.2⟩
  | .primes t ts s => by
    intro l l' b b' h
    unfold Scripts.denote at h
    obtain ⟨b1, h2, h⟩ := bind_ok h
    exact scripts_kept s h
  | .primesSup t ts a s => by
    intro l l' b b' h
    unfold Scripts.denote at h
    obtain ⟨r1, h1, h⟩ := bind_ok h
    obtain ⟨b1, h2, h⟩ := bind_ok h
    have g1 := arg_kept a (l' := r1.2) (n := r1.1) h1
    have g2 := scripts_kept s h
    exact ⟨g2.1, g2.2.trans g1.2⟩
end

end Verif

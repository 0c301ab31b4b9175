import Verif.Spec.Rows
import Verif.Spec.Tame
/-! Formulas in whose tokens there is nothing about numbers. -/
namespace Verif
open Model Spec

/-- Nothing about numbers -/
def calmTok : Token → Bool
  | .noNumber | .tag _ | .label => false
  | .beginEnv e => (envNumbering e).isNone
  | _ => true

/-- The same for several tokens -/
def NumberFree (ts : List Tk) : Prop := ts.all (fun t => calmTok t.tok) = true

theorem calm_append {a b : List Tk} : NumberFree (a ++ b) ↔ NumberFree a ∧ NumberFree b := by
  unfold NumberFree
  rw [List.all_append, Bool.and_eq_true]

theorem calm_cons {t : Tk} {b : List Tk} : NumberFree (t :: b) ↔ calmTok t.tok = true ∧ NumberFree b := by
  unfold NumberFree
  rw [List.all_cons, Bool.and_eq_true]

mutual
theorem form_quiet : (f : Form) → (sep : Bool) → f.tame sep = true → f.linked (fun _ => none) → NumberFree f.tokens → f.quiet sep = true
  | .nil, _, _, _, _ => rfl
  | .item b s rest, sep, ht, hl, hc => by
    simp only [Form.tame, Bool.and_eq_true] at ht
    simp only [Form.tokens, calm_append] at hc
    simp only [Form.quiet, Bool.and_eq_true]
    exact ⟨⟨base_quiet b ht.1.1 hl.1 hc.1.1, scripts_quiet s ht.1.2 hl.2.1 hc.1.2⟩, form_quiet rest sep ht.2 hl.2.2 hc.2⟩
  | .bigOp _ s rest, sep, ht, hl, hc => by
    simp only [Form.tame, Bool.and_eq_true] at ht
    simp only [Form.tokens, calm_append, List.cons_append, calm_cons] at hc
    simp only [Form.quiet, Bool.and_eq_true]
    exact ⟨scripts_quiet s ht.1 hl.1 hc.2.1.2, form_quiet rest sep ht.2 hl.2 hc.2.2⟩
  | .func _ _ s rest, sep, ht, hl, hc => by
    simp only [Form.tame, Bool.and_eq_true] at ht
    simp only [Form.tokens, calm_append] at hc
    simp only [Form.quiet, Bool.and_eq_true]
    exact ⟨scripts_quiet s ht.1.2 hl.1 hc.1.2, form_quiet rest sep ht.2 hl.2 hc.2⟩
  | .amp rest, sep, ht, hl, hc => by
    simp only [Form.tame, Bool.and_eq_true] at ht
    simp only [Form.tokens, calm_cons] at hc
    simp only [Form.quiet, Bool.and_eq_true]
    exact ⟨ht.1, form_quiet rest sep ht.2 hl hc.2⟩
  | .newLine _ rest, sep, ht, hl, hc => by
    simp only [Form.tame, Bool.and_eq_true] at ht
    simp only [Form.tokens, calm_append, List.cons_append, calm_cons] at hc
    simp only [Form.quiet, Bool.and_eq_true]
    exact ⟨ht.1, form_quiet rest sep ht.2 hl hc.2.2⟩
  | .noNumber _, _, _, _, hc => by simp only [Form.tokens, calm_cons] at hc; cases hc.1
  | .tag _ _ _, _, _, _, hc => by simp only [Form.tokens, List.cons_append, calm_cons] at hc; cases hc.1
  | .label _ _, _, _, _, hc => by simp only [Form.tokens, List.cons_append, calm_cons] at hc; cases hc.1
  | .style _ rest, _, ht, hl, hc => by
    simp only [Form.tokens, calm_cons] at hc
    exact form_quiet rest false ht hl hc.2
  | .color _ rest, _, ht, hl, hc => by
    simp only [Form.tokens, calm_cons, calm_append] at hc
    exact form_quiet rest false ht hl hc.2.2
  | .call _ _ _ _, _, _, hl, _ => by
    unfold Form.linked at hl
    obtain ⟨⟨_, h, _⟩, _⟩ := hl
    cases h
  | .emptyCall _ _ _ _, _, _, hl, _ => by
    unfold Form.linked at hl
    cases hl.1.1
theorem base_quiet : (b : Base) → b.tame = true → b.linked (fun _ => none) → NumberFree b.tokens → b.quiet = true
  | .atom _, _, _, _ | .number _ _, _, _, _ | .leaf _, _, _, _ => rfl
  | .group f, ht, hl, hc => by
    simp only [Base.tokens, calm_append, List.cons_append, calm_cons] at hc
    exact form_quiet f false ht hl hc.2.1
  | .cramped _ f, ht, hl, hc => by
    simp only [Base.tokens, calm_append, List.cons_append, calm_cons] at hc
    exact form_quiet f false ht hl (by simp_all)
  | .frac _ _ a b, ht, hl, hc => by
    simp only [Base.tokens, calm_append, List.cons_append, calm_cons] at hc
    simp only [Base.tame, Bool.and_eq_true] at ht
    simp only [Base.quiet, Bool.and_eq_true]
    exact ⟨arg_quiet a ht.1 hl.1 (by simp_all), arg_quiet b ht.2 hl.2 (by simp_all)⟩
  | .genfrac _ a b, ht, hl, hc => by
    simp only [Base.tokens, calm_append, List.cons_append, calm_cons] at hc
    simp only [Base.tame, Bool.and_eq_true] at ht
    simp only [Base.quiet, Bool.and_eq_true]
    exact ⟨arg_quiet a ht.1 hl.1 (by simp_all), arg_quiet b ht.2 hl.2 (by simp_all)⟩
  | .braceLabel _ _ a b, ht, hl, hc => by
    simp only [Base.tokens, calm_append, List.cons_append, calm_cons] at hc
    simp only [Base.tame, Bool.and_eq_true] at ht
    simp only [Base.quiet, Bool.and_eq_true]
    exact ⟨arg_quiet a ht.1 hl.1 (by simp_all), arg_quiet b ht.2 hl.2 (by simp_all)⟩
  | .prescript a b c, ht, hl, hc => by
    simp only [Base.tokens, calm_append, List.cons_append, calm_cons] at hc
    simp only [Base.tame, Bool.and_eq_true] at ht
    simp only [Base.quiet, Bool.and_eq_true]
    exact ⟨⟨arg_quiet a ht.1.1 hl.1 (by simp_all), arg_quiet b ht.1.2 hl.2.1 (by simp_all)⟩, arg_quiet c ht.2 hl.2.2 (by simp_all)⟩
  | .sqrt a, ht, hl, hc => by
    simp only [Base.tokens, calm_append, List.cons_append, calm_cons] at hc
    exact arg_quiet a ht hl (by simp_all)
  | .deco _ a, ht, hl, hc => by
    simp only [Base.tokens, calm_append, List.cons_append, calm_cons] at hc
    exact arg_quiet a ht hl (by simp_all)
  | .brace _ _ a, ht, hl, hc => by
    simp only [Base.tokens, calm_append, List.cons_append, calm_cons] at hc
    exact arg_quiet a ht hl (by simp_all)
  | .stackTok _ a _, ht, hl, hc => by
    simp only [Base.tokens, calm_append, List.cons_append, calm_cons] at hc
    exact arg_quiet a ht hl (by simp_all)
  | .arrow _ a, ht, hl, hc => by
    simp only [Base.tokens, calm_append, List.cons_append, calm_cons] at hc
    exact arg_quiet a ht hl (by simp_all)
  | .mathClass _ b, ht, hl, hc => by
    simp only [Base.tokens, calm_append, List.cons_append, calm_cons] at hc
    simp only [Base.tame, Bool.and_eq_true] at ht
    exact base_quiet b ht.1 hl hc.2
  | .overlay _ b, ht, hl, hc => by
    simp only [Base.tokens, calm_append, List.cons_append, calm_cons] at hc
    exact base_quiet b ht hl hc.2
  | .root f a, ht, hl, hc => by
    simp only [Base.tokens, calm_append, List.cons_append, calm_cons] at hc
    simp only [Base.tame, Bool.and_eq_true] at ht
    simp only [Base.quiet, Bool.and_eq_true]
    exact ⟨form_quiet f false ht.1 hl.1 (by simp_all), arg_quiet a ht.2 hl.2 (by simp_all)⟩
  | .arrowUnder _ f a, ht, hl, hc => by
    simp only [Base.tokens, calm_append, List.cons_append, calm_cons] at hc
    simp only [Base.tame, Bool.and_eq_true] at ht
    simp only [Base.quiet, Bool.and_eq_true]
    exact ⟨form_quiet f false ht.1 hl.1 (by simp_all), arg_quiet a ht.2 hl.2 (by simp_all)⟩
  | .stackGroup _ a f, ht, hl, hc => by
    simp only [Base.tokens, calm_append, List.cons_append, calm_cons] at hc
    simp only [Base.tame, Bool.and_eq_true] at ht
    simp only [Base.quiet, Bool.and_eq_true]
    exact ⟨arg_quiet a ht.1 hl.1 (by simp_all), form_quiet f false ht.2 hl.2 (by simp_all)⟩
  | .fence _ _ f, ht, hl, hc => by
    simp only [Base.tokens, calm_append, List.cons_append, calm_cons] at hc
    exact form_quiet f false ht hl (by simp_all)
  | .env e _ _ f, ht, hl, hc => by
    simp only [Base.tokens, calm_append, List.cons_append, calm_cons] at hc
    simp only [Base.quiet, Bool.and_eq_true]
    exact ⟨hc.1, form_quiet f true ht hl (by simp_all)⟩
theorem arg_quiet : (a : Arg) → a.tame = true → a.linked (fun _ => none) → NumberFree a.tokens → a.quiet = true
  | .tok _, _, _, _ => rfl
  | .braces f, ht, hl, hc => by
    simp only [Arg.tokens, calm_append, List.cons_append, calm_cons] at hc
    exact form_quiet f false ht hl hc.2.1
theorem scripts_quiet : (s : Scripts) → s.tame = true → s.linked (fun _ => none) → NumberFree s.tokens → s.quiet = true
  | .nil, _, _, _ => rfl
  | .sub a s, ht, hl, hc => by
    simp only [Scripts.tokens, calm_append, List.cons_append, calm_cons] at hc
    simp only [Scripts.tame, Bool.and_eq_true] at ht
    simp only [Scripts.quiet, Bool.and_eq_true]
    exact ⟨arg_quiet a ht.1 hl.1 (by simp_all), scripts_quiet s ht.2 hl.2 (by simp_all)⟩
  | .sup a s, ht, hl, hc => by
    simp only [Scripts.tokens, calm_append, List.cons_append, calm_cons] at hc
    simp only [Scripts.tame, Bool.and_eq_true] at ht
    simp only [Scripts.quiet, Bool.and_eq_true]
    exact ⟨arg_quiet a ht.1 hl.1 (by simp_all), scripts_quiet s ht.2 hl.2 (by simp_all)⟩
  | .primesSup _ _ a s, ht, hl, hc => by
    simp only [Scripts.tokens, calm_append, List.cons_append, calm_cons] at hc
    simp only [Scripts.tame, Bool.and_eq_true] at ht
    simp only [Scripts.quiet, Bool.and_eq_true]
    exact ⟨arg_quiet a ht.1 hl.1 (by simp_all), scripts_quiet s ht.2 hl.2 (by simp_all)⟩
  | .primes _ _ s, ht, hl, hc => by
    simp only [Scripts.tokens, calm_append, List.cons_append, calm_cons] at hc
    exact scripts_quiet s ht hl (by simp_all)
end

end Verif

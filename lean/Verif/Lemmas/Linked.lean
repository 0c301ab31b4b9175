import Verif.Spec.Rows
import Verif.Spec.Spacing
/-! In formulas without calls, there is nothing to be expanded. -/
namespace Verif
open Model Spec

variable (M : Macros)

mutual
theorem quiet_linked : ∀ (f : Form) (sep : Bool), f.quiet sep = true → f.linked M
  | .nil, _, _ => by simp [Form.linked]
  | .item b s rest, sep, h => by
    simp only [Form.quiet, Bool.and_eq_true] at h
    simp only [Form.linked]
    exact ⟨quiet_linked_base b h.1.1, quiet_linked_scripts s h.1.2, quiet_linked rest sep h.2⟩
  | .bigOp _ s rest, sep, h | .func _ _ s rest, sep, h => by
    simp only [Form.quiet, Bool.and_eq_true] at h
    simp only [Form.linked]
    exact ⟨quiet_linked_scripts s h.1, quiet_linked rest sep h.2⟩
  | .amp rest, sep, h | .newLine _ rest, sep, h => by
    simp only [Form.quiet, Bool.and_eq_true] at h
    simp only [Form.linked]
    exact quiet_linked rest sep h.2
  | .style _ rest, sep, h | .color _ rest, sep, h => by
    simp only [Form.quiet] at h
    simp only [Form.linked]
    exact quiet_linked rest false h
  | .noNumber _, _, h | .tag _ _ _, _, h | .label _ _, _, h | .call _ _ _ _, _, h | .emptyCall _ _ _ _, _, h => by
    simp [Form.quiet] at h
theorem quiet_linked_base : ∀ (b : Base), b.quiet = true → b.linked M
  | .atom _, _ | .number _ _, _ | .leaf _, _ => by simp [Base.linked]
  | .group f, h | .fence _ _ f, h | .cramped _ f, h => by
    simp only [Base.quiet] at h
    simp only [Base.linked]
    exact quiet_linked f _ h
  | .env _ _ _ f, h => by
    simp only [Base.quiet, Bool.and_eq_true] at h
    simp only [Base.linked]
    exact quiet_linked f _ h.2
  | .mathClass _ b, h | .overlay _ b, h => by
    simp only [Base.quiet] at h
    simp only [Base.linked]
    exact quiet_linked_base b h
  | .prescript a b c, h => by
    simp only [Base.quiet, Bool.and_eq_true] at h
    simp only [Base.linked]
    exact ⟨quiet_linked_arg a h.1.1, quiet_linked_arg b h.1.2, quiet_linked_arg c h.2⟩
  | .frac _ _ a b, h | .genfrac _ a b, h | .braceLabel _ _ a b, h => by
    simp only [Base.quiet, Bool.and_eq_true] at h
    simp only [Base.linked]
    exact ⟨quiet_linked_arg a h.1, quiet_linked_arg b h.2⟩
  | .sqrt a, h | .deco _ a, h | .brace _ _ a, h | .stackTok _ a _, h | .arrow _ a, h => by
    simp only [Base.quiet] at h
    simp only [Base.linked]
    exact quiet_linked_arg a h
  | .stackGroup _ a f, h => by
    simp only [Base.quiet, Bool.and_eq_true] at h
    simp only [Base.linked]
    exact ⟨quiet_linked_arg a h.1, quiet_linked f _ h.2⟩
  | .root d a, h | .arrowUnder _ d a, h => by
    simp only [Base.quiet, Bool.and_eq_true] at h
    simp only [Base.linked]
    exact ⟨quiet_linked d _ h.1, quiet_linked_arg a h.2⟩
theorem quiet_linked_arg : ∀ (a : Arg), a.quiet = true → a.linked M
  | .tok _, _ => by simp [Arg.linked]
  | .braces f, h => by
    simp only [Arg.quiet] at h
    simp only [Arg.linked]
    exact quiet_linked f _ h
theorem quiet_linked_scripts : ∀ (s : Scripts), s.quiet = true → s.linked M
  | .nil, _ => by simp [Scripts.linked]
  | .sub a s, h | .sup a s, h | .primesSup _ _ a s, h => by
    simp only [Scripts.quiet, Bool.and_eq_true] at h
    simp only [Scripts.linked]
    exact ⟨quiet_linked_arg a h.1, quiet_linked_scripts s h.2⟩
  | .primes _ _ s, h => by
    simp only [Scripts.quiet] at h
    simp only [Scripts.linked]
    exact quiet_linked_scripts s h
end

theorem simpleRows_linked : ∀ (f : Form), (∀ mid, f.simpleRows mid = true → f.linked M) ∧ (f.endsCell = true → f.linked M)
  | .nil => by simp [Form.linked]
  | .item b s rest => by
    refine ⟨fun mid h => ?_, by simp [Form.endsCell]⟩
    simp only [Form.simpleRows, Bool.and_eq_true] at h
    simp only [Form.linked]
    exact ⟨quiet_linked_base M b h.1.1, quiet_linked_scripts M s h.1.2, (simpleRows_linked rest).1 _ h.2⟩
  | .bigOp _ s rest | .func _ _ s rest => by
    refine ⟨fun mid h => ?_, by simp [Form.endsCell]⟩
    simp only [Form.simpleRows, Bool.and_eq_true] at h
    simp only [Form.linked]
    exact ⟨quiet_linked_scripts M s h.1, (simpleRows_linked rest).1 _ h.2⟩
  | .amp rest | .newLine _ rest => by
    simp only [Form.simpleRows, Form.linked, Form.endsCell]
    exact ⟨fun _ h => (simpleRows_linked rest).1 _ h, fun h => (simpleRows_linked rest).1 _ h⟩
  | .noNumber rest | .tag _ _ rest | .label _ rest => by
    simp only [Form.simpleRows, Form.linked, Form.endsCell]
    refine ⟨fun mid h => ?_, fun h => (simpleRows_linked rest).2 h⟩
    cases mid
    · exact (simpleRows_linked rest).1 _ h
    · exact (simpleRows_linked rest).2 h
  | .style _ rest | .color _ rest => by
    refine ⟨fun mid h => ?_, by simp [Form.endsCell]⟩
    simp only [Form.simpleRows] at h
    simp only [Form.linked]
    exact quiet_linked M rest _ h
  | .call _ _ _ _ | .emptyCall _ _ _ _ => by simp [Form.simpleRows, Form.endsCell]

theorem page_linked : ∀ (f : Form), f.page = true → f.linked M
  | .nil, _ => by simp [Form.linked]
  | .item b s rest, h => by
    simp only [Form.page, Bool.and_eq_true] at h
    simp only [Form.linked]
    refine ⟨?_, ?_, page_linked rest h.2⟩
    · have h1 := h.1
      split at h1
      · simp only [simpleEnv, Bool.and_eq_true] at h1
        simp only [Base.linked]
        exact (simpleRows_linked M _).1 _ h1.2.1.1
      · simp only [Bool.and_eq_true] at h1
        exact quiet_linked_base M b h1.1
    · have h1 := h.1
      split at h1
      · simp [Scripts.linked]
      · simp only [Bool.and_eq_true] at h1
        exact quiet_linked_scripts M s h1.2
  | .bigOp _ s rest, h | .func _ _ s rest, h => by
    simp only [Form.page, Bool.and_eq_true] at h
    simp only [Form.linked]
    exact ⟨quiet_linked_scripts M s h.1, page_linked rest h.2⟩
  | .style _ rest, h | .color _ rest, h => by
    simp only [Form.page] at h
    simp only [Form.linked]
    exact quiet_linked M rest _ h
  | .amp _, h | .newLine _ _, h | .noNumber _, h | .tag _ _ _, h | .label _ _, h | .call _ _ _ _, h
  | .emptyCall _ _ _ _, h => by simp [Form.page] at h

theorem formOf_linked (ts : List Token) : (formOf ts).linked M := by
  fun_induction formOf ts <;> simp_all [Form.linked, Scripts.linked, Base.linked]

end Verif

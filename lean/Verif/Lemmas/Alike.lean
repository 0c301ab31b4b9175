import Verif.Spec.Alike
/-! Formulas which differ only in how their symbols are written have the same meaning. -/
namespace Verif
open Model Spec

/-- The classes of tokens -/
def classes (ts : List Tk) : List (Option Class) := ts.map fun t => t.tok.cls

theorem classes_append (a b : List Tk) : classes (a ++ b) = classes a ++ classes b := List.map_append

theorem classes_cons (t : Tk) (b : List Tk) : classes (t :: b) = t.tok.cls :: classes b := rfl

theorem lead_classes {a b : List Tk} (h : classes a = classes b) (nxt : Class) : lead a nxt = lead b nxt := by
  induction a generalizing b with
  | nil =>
    cases b with
    | nil => rfl
    | cons x xs => cases h
  | cons t ts ih =>
    cases b with
    | nil => cases h
    | cons x xs =>
      simp only [classes_cons, List.cons.injEq] at h
      simp only [lead, h.1, ih h.2]

/-- What does not depend on the mode of a letter is the same for the same symbol. -/
theorem sameSymbol_same {α : Type} {t t' : Token} (h : SameSymbol t t') (f : Token → α)
    (hf : ∀ c m m', f (.letter c m) = f (.letter c m')) : f t.unwrapMath = f t'.unwrapMath := by
  rcases h with h | ⟨c, m, m', h, h'⟩
  · rw [h]
  · rw [h, h']
    exact hf c m m'

theorem sameSymbol_cls {t t' : Token} (h : SameSymbol t t') : t.cls = t'.cls :=
  sameSymbol_same h Token.classU fun _ _ _ => rfl

theorem tight_classes {ts ts' : List Token} (h : ts.map Token.unwrapMath = ts'.map Token.unwrapMath) :
    classes (tight ts) = classes (tight ts') := by
  have e : ∀ us : List Token, classes (tight us) = (us.map Token.unwrapMath).map Token.classU := by
    intro us
    induction us with
    | nil => rfl
    | cons u us ih => exact congrArg (u.cls :: ·) ih
  rw [e, e, h]

theorem sameDelim_classes {d d' : Option Token} (h : SameDelim d d') :
    classes (oneTokens d) = classes (oneTokens d') := by
  cases h with
  | none => rfl
  | some h =>
    show [_, _, _] = [_, _, _]
    exact congrArg (fun x => [_, x, _]) (sameSymbol_cls h)

theorem sameDelim_denote {d d' : Option Token} (h : SameDelim d d') : genDelim d = genDelim d' := by
  cases h with
  | none => rfl
  | some h =>
    unfold genDelim
    exact sameSymbol_same h (fun t => (someDelim .genfrac t).map some) fun _ _ _ => rfl

theorem leaf_classes {x x' : Leaf} (h : x.Alike x') : classes x.tokens = classes x'.tokens := by
  cases h with
  | same => rfl
  | big h => exact congrArg (fun c => [_, c]) (sameSymbol_cls h)
  | middle h => exact congrArg (fun c => [_, c]) (sameSymbol_cls h)

theorem leaf_alike {x x' : Leaf} (h : x.Alike x') (st : Style) (p n : Class) : x.denote st p n = x'.denote st p n := by
  cases h with
  | same => rfl
  | big h =>
    simp only [Leaf.denote, sameSymbol_same h (someDelim .big) fun _ _ _ => rfl]
  | middle h =>
    simp only [Leaf.denote, sameSymbol_same h (someDelim .middle) fun _ _ _ => rfl]

theorem bigOp_class {op : Op} {lim : Option LimitsKind} {char : Option Char} :
    (BigOp.token ⟨op, lim, char⟩).cls = some .operator := by
  cases char <;> rfl

theorem primes_alike {ts ts' : List Token} (h : ts.map Token.unwrapMath = ts'.map Token.unwrapMath) :
    primesNodes ts = primesNodes ts' := by
  have e : ∀ us : List Token, us.filterMap primeOf = (us.map Token.unwrapMath).filterMap fun
      | .prime k => some k
      | _ => none := by
    intro us
    rw [List.filterMap_map]
    rfl
  unfold primesNodes primeRuns
  rw [e, e, h]

mutual
theorem form_classes : ∀ {f f' : Form}, f.Alike f' → classes f.tokens = classes f'.tokens
  | _, _, .nil => rfl
  | _, _, .item hb hs hr => by
    simp only [Form.tokens, classes_append, base_classes hb, scripts_classes hs, form_classes hr]
  | _, _, .bigOp hs hr => by
    simp only [Form.tokens, classes_append, classes_cons, bigOp_class, scripts_classes hs, form_classes hr]
  | _, _, .func hs hr => by
    simp only [Form.tokens, classes_append, scripts_classes hs, form_classes hr]
  | _, _, .amp hr | _, _, .newLine hr | _, _, .noNumber hr | _, _, .tag hr | _, _, .label hr | _, _, .style hr
  | _, _, .color hr => by
    simp only [Form.tokens, classes_append, classes_cons, form_classes hr]
  | _, _, .call hr => by
    have e : ∀ (k : Nat) (ts : List Tk), classes (ts.drop k) = (classes ts).drop k := fun k ts => List.map_drop ..
    simp only [Form.tokens, classes_append, classes_cons, e, form_classes hr]
  | _, _, .emptyCall hs hr => by
    simp only [Form.tokens, classes_append, classes_cons, scripts_classes hs, form_classes hr]
theorem base_classes : ∀ {b b' : Base}, b.Alike b' → classes b.tokens = classes b'.tokens
  | _, _, .atom h => congrArg (fun c => [c]) (sameSymbol_cls h)
  | _, _, .number => rfl
  | _, _, .group h => by simp only [Base.tokens, classes_append, classes_cons, form_classes h]
  | _, _, .frac ha hb => by simp only [Base.tokens, classes_append, classes_cons, arg_classes ha, arg_classes hb]
  | _, _, .genfrac hl hr ha hb => by
    simp only [Base.tokens, GenFrac.tokens, classes_append, classes_cons, sameDelim_classes hl, sameDelim_classes hr, arg_classes ha,
      arg_classes hb]
  | _, _, .sqrt ha | _, _, .deco ha | _, _, .brace ha | _, _, .arrow ha => by
    simp only [Base.tokens, classes_cons, arg_classes ha]
  | _, _, .root hf ha | _, _, .arrowUnder hf ha | _, _, .stackGroup ha hf => by
    simp only [Base.tokens, classes_append, classes_cons, form_classes hf, arg_classes ha]
  | _, _, .braceLabel ha hb => by simp only [Base.tokens, classes_append, classes_cons, arg_classes ha, arg_classes hb]
  | _, _, .prescript ha hb hc => by
    simp only [Base.tokens, classes_append, classes_cons, arg_classes ha, arg_classes hb, arg_classes hc]
  | _, _, .leaf h => leaf_classes h
  | _, _, .mathClass h | _, _, .overlay h => by simp only [Base.tokens, classes_cons, base_classes h]
  | _, _, .stackTok ha h => by simp only [Base.tokens, classes_append, classes_cons, arg_classes ha, (sameSymbol_cls h)]
  | _, _, .cramped h | _, _, .env h => by simp only [Base.tokens, classes_append, classes_cons, form_classes h]
  | _, _, .fence hl hr h => by
    simp only [Base.tokens, classes_append, classes_cons, form_classes h, sameSymbol_cls (.inl hl), sameSymbol_cls (.inl hr)]
theorem arg_classes : ∀ {a a' : Arg}, a.Alike a' → classes a.tokens = classes a'.tokens
  | _, _, .tok h => congrArg (fun c => [c]) (sameSymbol_cls h)
  | _, _, .braces h => by simp only [Arg.tokens, classes_append, classes_cons, form_classes h]
theorem scripts_classes : ∀ {s s' : Scripts}, s.Alike s' → classes s.tokens = classes s'.tokens
  | _, _, .nil => rfl
  | _, _, .sub ha hs | _, _, .sup ha hs => by
    simp only [Scripts.tokens, classes_append, classes_cons, arg_classes ha, scripts_classes hs]
  | _, _, .primes h hts hs => by
    simp only [Scripts.tokens, classes_append, classes_cons, sameSymbol_cls (.inl h), tight_classes hts, scripts_classes hs]
  | _, _, .primesSup h hts ha hs => by
    simp only [Scripts.tokens, classes_append, classes_cons, sameSymbol_cls (.inl h), tight_classes hts, arg_classes ha,
      scripts_classes hs]
end

theorem lead_alike {s s' : Scripts} {f f' : Form} (hs : s.Alike s') (hf : f.Alike f') (nxt : Class) :
    lead (s.tokens ++ f.tokens) nxt = lead (s'.tokens ++ f'.tokens) nxt :=
  lead_classes (by simp only [classes_append, scripts_classes hs, form_classes hf]) nxt

mutual
theorem form_alike : ∀ {f f' : Form}, f.Alike f' → f.denote = f'.denote
  | _, _, .nil => rfl
  | _, _, .item hb hs hr => by
    funext l prev nxt
    simp only [Form.denote, base_alike hb, scripts_alike hs, form_alike hr, lead_alike hs hr]
  | _, _, .bigOp hs hr => by
    funext l prev nxt
    simp only [Form.denote, scripts_alike hs, form_alike hr, lead_alike hs hr, lead_classes (form_classes hr)]
  | _, _, .func hs hr => by
    funext l prev nxt
    simp only [Form.denote, scripts_alike hs, form_alike hr, lead_classes (form_classes hr)]
  | _, _, .amp hr | _, _, .newLine hr | _, _, .noNumber hr | _, _, .tag hr | _, _, .label hr | _, _, .style hr
  | _, _, .color hr | _, _, .call hr => by
    funext l prev nxt
    simp only [Form.denote, form_alike hr]
  | _, _, .emptyCall hs hr => by
    funext l prev nxt
    simp only [Form.denote, scripts_alike hs, form_alike hr]
theorem base_alike : ∀ {b b' : Base}, b.Alike b' → b.denote = b'.denote
  | _, _, .atom h => by
    funext l prev nxt
    simp only [Base.denote, sameSymbol_same h (atomNode l.style true prev (l.seen nxt)) fun _ _ _ => rfl]
  | _, _, .number => rfl
  | _, _, .group hf | _, _, .cramped hf | _, _, .env hf => by
    funext l prev nxt
    simp only [Base.denote, form_alike hf]
  | _, _, .frac ha hb | _, _, .braceLabel ha hb => by
    funext l prev nxt
    simp only [Base.denote, arg_alike ha, arg_alike hb]
  | _, _, .genfrac hl hr ha hb => by
    funext l prev nxt
    simp only [Base.denote, sameDelim_denote hl, sameDelim_denote hr, arg_alike ha, arg_alike hb]
  | _, _, .sqrt ha | _, _, .deco ha | _, _, .brace ha | _, _, .arrow ha => by
    funext l prev nxt
    simp only [Base.denote, arg_alike ha]
  | _, _, .root hf ha | _, _, .arrowUnder hf ha | _, _, .stackGroup ha hf => by
    funext l prev nxt
    simp only [Base.denote, form_alike hf, arg_alike ha]
  | _, _, .prescript ha hb hc => by
    funext l prev nxt
    simp only [Base.denote, arg_alike ha, arg_alike hb, arg_alike hc]
  | _, _, .leaf h => by
    funext l prev nxt
    simp only [Base.denote, leaf_alike h]
  | _, _, .mathClass h | _, _, .overlay h => by
    funext l prev nxt
    simp only [Base.denote, base_alike h]
  | _, _, .stackTok ha h => by
    funext l prev nxt
    simp only [Base.denote, arg_alike ha,
      sameSymbol_same h (aloneNode l.style prev (if nxt = .ending then .default else nxt)) fun _ _ _ => rfl]
  | _, _, .fence hl hr hf => by
    funext l prev nxt
    simp only [Base.denote, form_alike hf, hl, hr]
theorem arg_alike : ∀ {a a' : Arg}, a.Alike a' → a.denote = a'.denote
  | _, _, .tok (t := t) (t' := t') h => by
    funext reset l
    unfold Arg.denote
    rcases h with h | ⟨c, m, m', h, h'⟩
    · rw [h]
    · rw [h, h']
      rfl
  | _, _, .braces hf => by
    funext reset l
    simp only [Arg.denote, form_alike hf]
theorem scripts_alike : ∀ {s s' : Scripts}, s.Alike s' → s.denote = s'.denote
  | _, _, .nil => rfl
  | _, _, .sub ha hs | _, _, .sup ha hs => by
    funext l b
    simp only [Scripts.denote, arg_alike ha, scripts_alike hs]
  | _, _, .primes (t := t) (t' := t') (ts := ts) (ts' := ts') h hts hs => by
    have e : primesNodes (t :: ts) = primesNodes (t' :: ts') := primes_alike (by simp only [List.map_cons, h, hts])
    funext l b
    simp only [Scripts.denote, e, scripts_alike hs]
  | _, _, .primesSup (t := t) (t' := t') (ts := ts) (ts' := ts') h hts ha hs => by
    have e : primesNodes (t :: ts) = primesNodes (t' :: ts') := primes_alike (by simp only [List.map_cons, h, hts])
    funext l b
    simp only [Scripts.denote, e, arg_alike ha, scripts_alike hs]
end

end Verif

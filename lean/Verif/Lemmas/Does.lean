import Verif.Lemmas.Exec
import Verif.Spec.Grammar
/-! A calculus for running the parser on known tokens, with results and errors in one statement. -/
namespace Verif
open Model Spec Lexer' TokenQueue

/-- The state of the parser at a location of a formula -/
def Ctx.at (k : Ctx) (l : Loc) : Ctx :=
  { k with
    style := l.style, env := l.env, count := l.count, labels := l.labels, expansionsLeft := l.left,
    rightBoundaryHack := l.stacked }

/-- No font command and no special meaning of `|` is in force. -/
structure Ctx.Plain (k : Ctx) : Prop where
  transform : k.transform = none
  vld : k.verticalLineDef = none

/-- At location `l`, with `ts` to come, the computation gives this result, and then `ts'` is to come. -/
def Does {α : Type} (cfg : ParserConfig) (k : Ctx) (m : Nat → P α) (ts : List Tk) (l : Loc) (ts' : List Tk)
    (r : Except LatexErrKind (α × Loc)) : Prop :=
  match r with
  | .ok (a, l') => Gets cfg m ts (k.at l) a ts' (k.at l')
  | .error e => Raises cfg m ts (k.at l) e

variable {cfg : ParserConfig} {k : Ctx} {α β : Type} {m : Nat → P α} {f : Nat → α → P β}
  {ts ts' ts'' : List Tk} {l l' l'' : Loc} {a : α} {t : Tk}

theorem St.bind_assoc' {α β γ : Type} (m : P α) (f : α → P β) (g : β → P γ) :
    (m >>= f) >>= g = m >>= fun x => f x >>= g := by
  funext cfg s
  show St.bind (St.bind m f) g cfg s = St.bind m (fun x => St.bind (f x) g) cfg s
  unfold St.bind
  cases m cfg s <;> rfl

theorem Does.bind {r : Except LatexErrKind (α × Loc)} {g : α × Loc → Except LatexErrKind (β × Loc)}
    (h : Does cfg k m ts l ts' r)
    (h' : ∀ a l', r = .ok (a, l') → Does cfg k (fun n => f n a) ts' l' ts'' (g (a, l'))) :
    Does cfg k (fun n => m n >>= f n) ts l ts'' (r >>= g) := by
  cases r with
  | error e => exact Raises.bind h
  | ok p =>
    obtain ⟨a, l'⟩ := p
    have h1 := h' a l' rfl
    show Does cfg k _ ts l ts'' (g (a, l'))
    unfold Does at h h1 ⊢
    cases hg : g (a, l') with
    | error e => rw [hg] at h1; exact Gets.bind_raises h h1
    | ok q =>
      obtain ⟨b, l2⟩ := q
      rw [hg] at h1
      exact Gets.bind h h1

/-- A step which always succeeds -/
theorem Does.after {r : Except LatexErrKind (β × Loc)} (h : Does cfg k m ts l ts' (.ok (a, l')))
    (h' : Does cfg k (fun n => f n a) ts' l' ts'' r) : Does cfg k (fun n => m n >>= f n) ts l ts'' r :=
  Does.bind (r := .ok (a, l')) (g := fun _ => r) h fun _ _ e => by cases e; exact h'

theorem Does.pure : Does cfg k (fun _ => (Pure.pure a : P α)) ts l ts (.ok (a, l)) := Gets.pure

theorem Does.fail {sp : Span} {e} : Does cfg k (fun _ => (P.fail sp e : P α)) ts l ts' (.error e) := Raises.fail

theorem Does.fail_bind {sp : Span} {e} : Does cfg k (fun n => (P.fail sp e : P α) >>= f n) ts l ts' (.error e) :=
  Raises.fail_bind

theorem Does.get_bind {r : Except LatexErrKind (β × Loc)} {f : Nat → PState → P β}
    (h : ∀ s, s.ctx = k.at l → Does cfg k (fun n => f n s) ts l ts' r) :
    Does cfg k (fun n => St.get >>= f n) ts l ts' r := by
  cases r with
  | error e => exact Raises.get_bind h
  | ok p => exact Gets.get_bind h

theorem Does.modify_bind {r : Except LatexErrKind (β × Loc)} {g : PState → PState} {f : Nat → Unit → P β}
    (hq : ∀ s, (g s).q = s.q) (hg : ∀ s, s.ctx = k.at l → (g s).ctx = k.at l')
    (h : Does cfg k (fun n => f n ()) ts l' ts' r) : Does cfg k (fun n => St.modify g >>= f n) ts l ts' r := by
  cases r with
  | error e => exact Raises.modify_bind hq hg h
  | ok p => exact Gets.modify_bind hq hg h

theorem Does.modify {g : PState → PState} (hq : ∀ s, (g s).q = s.q) (hg : ∀ s, s.ctx = k.at l → (g s).ctx = k.at l') :
    Does cfg k (fun _ => St.modify g) ts l ts (.ok ((), l')) := Gets.modify hq hg

theorem Does.peek_bind {r : Except LatexErrKind (β × Loc)} {f : Nat → TokSpan → P β} (hw : t.tok.isWs = false)
    (h : ∀ sp, Does cfg k (fun n => f n ⟨t.tok, sp⟩) (t :: ts) l ts' r) :
    Does cfg k (fun n => P.peek >>= f n) (t :: ts) l ts' r := by
  cases r with
  | error e => exact Raises.peek_bind hw h
  | ok p => exact Gets.peek_bind hw h

theorem Does.next_bind {r : Except LatexErrKind (β × Loc)} {f : Nat → TokSpan → P β} (hw : t.tok.isWs = false)
    (hn : Named t.tok.unwrapMath = true)
    (h : ∀ sp, Does cfg k (fun n => f n ⟨t.tok.unwrapMath, sp⟩) ts l ts' r) :
    Does cfg k (fun n => P.next >>= f n) (t :: ts) l ts' r := by
  cases r with
  | error e => exact Raises.next_bind hw hn h
  | ok p => exact Gets.next_bind hw hn h

theorem Does.nextAny_bind {r : Except LatexErrKind (β × Loc)} {f : Nat → TokSpan → P β} (ht : t.tight = true)
    (hw : t.tok.isWs = false) (hn : Named t.tok = true)
    (h : ∀ sp, Does cfg k (fun n => f n ⟨t.tok, sp⟩) ts l ts' r) :
    Does cfg k (fun n => P.nextAny >>= f n) (t :: ts) l ts' r := by
  cases r with
  | error e =>
    intro s hs
    obtain ⟨sp, q', h1, h2⟩ := hs.nextAny ht hw hn
    obtain ⟨n0, e, s', h3, h4⟩ := h sp _ h2
    refine ⟨n0, e, s', fun n hn => ?_, h4⟩
    show St.bind P.nextAny (f n) cfg s = _
    unfold St.bind
    rw [h1]; exact h3 n hn
  | ok p =>
    intro s hs
    obtain ⟨sp, q', h1, h2⟩ := hs.nextAny ht hw hn
    obtain ⟨n0, s', h3, h4⟩ := h sp _ h2
    refine ⟨n0, s', fun n hn => ?_, h4⟩
    show St.bind P.nextAny (f n) cfg s = _
    unfold St.bind
    rw [h1]; exact h3 n hn

theorem Does.peekAny_bind {r : Except LatexErrKind (β × Loc)} {f : Nat → TokSpan → P β} (hw : t.tok.isWs = false)
    (h : ∀ tok sp, (tok = t.tok ∨ (t.tight = false ∧ tok = .whitespace)) →
      Does cfg k (fun n => f n ⟨tok, sp⟩) (t :: ts) l ts' r) :
    Does cfg k (fun n => P.peekAny >>= f n) (t :: ts) l ts' r := by
  cases r with
  | error e =>
    intro s hs
    obtain ⟨tok, sp, h1, h2⟩ := hs.peekAny hw
    obtain ⟨n0, e, s', h3, h4⟩ := h tok sp h2 s hs
    refine ⟨n0, e, s', fun n hn => ?_, h4⟩
    show f n s.q.peekAny cfg s = _
    rw [h1]; exact h3 n hn
  | ok p =>
    intro s hs
    obtain ⟨tok, sp, h1, h2⟩ := hs.peekAny hw
    obtain ⟨n0, s', h3, h4⟩ := h tok sp h2 s hs
    refine ⟨n0, s', fun n hn => ?_, h4⟩
    show f n s.q.peekAny cfg s = _
    rw [h1]; exact h3 n hn

theorem Does.peekClass_bind {r : Except LatexErrKind (β × Loc)} {inSeq : Bool} {f : Nat → Class → P β}
    (hl : HasLead ts) (hk : k.Plain)
    (h : Does cfg k (fun n => f n (if inSeq then leadClass ts else .default)) ts l ts' r) :
    Does cfg k (fun n => Model.peekClassToken inSeq >>= f n) ts l ts' r := by
  cases r with
  | error e => exact Raises.peekClass_bind hl hk.vld h
  | ok p => exact Gets.peekClass_bind hl hk.vld h

theorem Does.step {F : Nat → P α} {G : Nat → P α} {r : Except LatexErrKind (α × Loc)} (hF : ∀ n, F (n + 1) = G n)
    (h : Does cfg k G ts l ts' r) : Does cfg k F ts l ts' r := by
  cases r with
  | error e => exact Raises.step hF h
  | ok p => exact Gets.step hF h

theorem Does.merge (hk : k.Plain) : Does cfg k (fun _ => mergeAndTransformLetters) ts l ts (.ok (none, l)) :=
  Gets.merge hk.transform

theorem Does.skipIf {b : Bool} (hw : t.tok.isWs = false) (hn : Named t.tok.unwrapMath = true) :
    Does cfg k (fun _ => P.skipIf b) (t :: ts) l (if b then ts else t :: ts) (.ok ((), l)) :=
  Gets.skipIf hw hn

/-- The loop fuel is enough for all tokens which are expected. -/
theorem Does.congr {m' : Nat → P α} {r : Except LatexErrKind (α × Loc)} (he : m' = m)
    (h : Does cfg k m ts l ts' r) : Does cfg k m' ts l ts' r := he ▸ h

end Verif

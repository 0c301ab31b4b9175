import Verif.Model.Parser
import Verif.Lemmas.Queue
import Verif.Spec.Comes
/-! A calculus for running the parser on known tokens: what it returns and which tokens remain, once there is
enough fuel. -/
namespace Verif
open Model Spec Lexer' TokenQueue

/-- The state of the parser apart from the tokens to come -/
structure Ctx where
  stores : CmdStores
  count : Nat
  labels : StrMap Str
  transform : Option MathVariant
  rightBoundaryHack : Bool
  env : EnvState
  style : Style
  verticalLineDef : Option VerticalLineDef
  expansionsLeft : Nat

/-- The state of the parser apart from the tokens to come -/
def Model.PState.ctx (s : PState) : Ctx where
  stores := s.q.stores
  count := s.q.equationCount
  labels := s.q.labelMap
  transform := s.transform
  rightBoundaryHack := s.rightBoundaryHack
  env := s.env
  style := s.style
  verticalLineDef := s.verticalLineDef
  expansionsLeft := s.expansionsLeft

/-- The parser is in state `c`, the next tokens are `ts`, and all of the source can be tokenised. -/
structure Is (cfg : ParserConfig) (s : PState) (ts : List Tk) (c : Ctx) : Prop where
  inv : QInv s.q
  clean : ∀ i, ∃ qt, upcoming cfg s.q i = .ok qt
  comes : Comes (upcoming cfg s.q) ts
  ctx : s.ctx = c

variable {cfg : ParserConfig} {α β : Type} {m : Nat → P α} {f : Nat → α → P β} {ts ts' ts'' : List Tk}
  {c c' c'' : Ctx} {a : α} {b : β} {t : Tk}

/-- In state `c`, with `ts` to come, the computation returns `a`, and then the state is `c'` with `ts'` to come. -/
def Gets (cfg : ParserConfig) (m : Nat → P α) (ts : List Tk) (c : Ctx) (a : α) (ts' : List Tk) (c' : Ctx) : Prop :=
  ∀ s, Is cfg s ts c → ∃ n0 s', (∀ n, n0 ≤ n → m n cfg s = .ok a s') ∧ Is cfg s' ts' c'

/-- In state `c`, with `ts` to come, the computation fails with an error of this kind. -/
def Raises (cfg : ParserConfig) (m : Nat → P α) (ts : List Tk) (c : Ctx) (k : LatexErrKind) : Prop :=
  ∀ s, Is cfg s ts c → ∃ n0 e s', (∀ n, n0 ≤ n → m n cfg s = .err e s') ∧ e.kind = k

theorem Gets.bind (h : Gets cfg m ts c a ts' c') (h' : Gets cfg (fun n => f n a) ts' c' b ts'' c'') :
    Gets cfg (fun n => m n >>= f n) ts c b ts'' c'' := by
  intro s hs
  obtain ⟨n1, s1, h1, h2⟩ := h s hs
  obtain ⟨n2, s2, h3, h4⟩ := h' s1 h2
  refine ⟨max n1 n2, s2, fun n hn => ?_, h4⟩
  show St.bind (m n) (f n) cfg s = _
  unfold St.bind
  rw [h1 n (by omega)]
  exact h3 n (by omega)

theorem Gets.bind_raises {k} (h : Gets cfg m ts c a ts' c') (h' : Raises cfg (fun n => f n a) ts' c' k) :
    Raises cfg (fun n => m n >>= f n) ts c k := by
  intro s hs
  obtain ⟨n1, s1, h1, h2⟩ := h s hs
  obtain ⟨n2, e, s2, h3, h4⟩ := h' s1 h2
  refine ⟨max n1 n2, e, s2, fun n hn => ?_, h4⟩
  show St.bind (m n) (f n) cfg s = _
  unfold St.bind
  rw [h1 n (by omega)]
  exact h3 n (by omega)

theorem Raises.bind {k} (h : Raises cfg m ts c k) : Raises cfg (fun n => m n >>= f n) ts c k := by
  intro s hs
  obtain ⟨n1, e, s1, h1, h2⟩ := h s hs
  refine ⟨n1, e, s1, fun n hn => ?_, h2⟩
  show St.bind (m n) (f n) cfg s = _
  unfold St.bind
  rw [h1 n (by omega)]

theorem Gets.pure : Gets cfg (fun _ => (Pure.pure a : P α)) ts c a ts c :=
  fun s hs => ⟨0, s, fun _ _ => rfl, hs⟩

theorem Raises.fail {sp : Span} {k} : Raises cfg (fun _ => (P.fail sp k : P α)) ts c k :=
  fun s _ => ⟨0, _, s, fun _ _ => rfl, rfl⟩

theorem Raises.fail_bind {sp : Span} {k} : Raises cfg (fun n => (P.fail sp k : P α) >>= f n) ts c k :=
  Raises.bind (m := fun _ => P.fail sp k) Raises.fail

/-- The current state is looked at: only what is in `c` is known about it. -/
theorem Gets.get_bind {f : Nat → PState → P β} (h : ∀ s, s.ctx = c → Gets cfg (fun n => f n s) ts c b ts' c') :
    Gets cfg (fun n => St.get >>= f n) ts c b ts' c' :=
  fun s hs => h s hs.ctx s hs

theorem Raises.get_bind {k} {f : Nat → PState → P β} (h : ∀ s, s.ctx = c → Raises cfg (fun n => f n s) ts c k) :
    Raises cfg (fun n => St.get >>= f n) ts c k :=
  fun s hs => h s hs.ctx s hs

theorem Gets.config_bind {f : Nat → ParserConfig → P β} (h : Gets cfg (fun n => f n cfg) ts c b ts' c') :
    Gets cfg (fun n => St.config >>= f n) ts c b ts' c' :=
  fun s hs => h s hs

/-- The parser's own state is changed. -/
theorem Gets.modify_bind {g : PState → PState} {f : Nat → Unit → P β} (hq : ∀ s, (g s).q = s.q)
    (hg : ∀ s, s.ctx = c → (g s).ctx = c')
    (h : Gets cfg (fun n => f n ()) ts c' b ts'' c'') : Gets cfg (fun n => St.modify g >>= f n) ts c b ts'' c'' :=
  fun s hs => h (g s) ⟨by rw [hq]; exact hs.inv, by rw [hq]; exact hs.clean, by rw [hq]; exact hs.comes, hg s hs.ctx⟩

theorem Raises.modify_bind {k} {g : PState → PState} {f : Nat → Unit → P β} (hq : ∀ s, (g s).q = s.q)
    (hg : ∀ s, s.ctx = c → (g s).ctx = c')
    (h : Raises cfg (fun n => f n ()) ts c' k) : Raises cfg (fun n => St.modify g >>= f n) ts c k :=
  fun s hs => h (g s) ⟨by rw [hq]; exact hs.inv, by rw [hq]; exact hs.clean, by rw [hq]; exact hs.comes, hg s hs.ctx⟩

theorem Gets.modify {g : PState → PState} (hq : ∀ s, (g s).q = s.q) (hg : ∀ s, s.ctx = c → (g s).ctx = c') :
    Gets cfg (fun _ => St.modify g) ts c () ts c' :=
  fun s hs => ⟨0, g s, fun _ _ => rfl, ⟨by rw [hq]; exact hs.inv, by rw [hq]; exact hs.clean, by rw [hq]; exact hs.comes, hg s hs.ctx⟩⟩

/-! ### Tokens -/

/-- The next tokens are whitespace and then the one which is expected. -/
theorem Is.split {s : PState} (h : Is cfg s (t :: ts) c) (hw : t.tok.isWs = false) :
    ∃ pre qt post, s.q.queue = pre ++ qt :: post ∧ pre.length = s.q.nextNonWs ∧ qt.tok = t.tok ∧
      (∀ x ∈ pre, x.tok.isWs = true) ∧ (t.tight = true → pre = []) ∧
      Comes ((upcoming cfg s.q).drop (pre.length + 1)) ts := by
  obtain ⟨pre, qt, post, h1, h2, h3, h4⟩ := h.inv.split
  obtain ⟨k, x, hk, hws, hx, hxt, hrest⟩ := h.comes
  have hpre : ∀ (j : Nat) (hj : j < pre.length), upcoming cfg s.q j = .ok pre[j] := by
    intro j hj
    refine upcoming_head ?_
    rw [h1, List.getElem?_append_left hj, List.getElem?_eq_getElem hj]
  have hqt : upcoming cfg s.q pre.length = .ok qt := by
    refine upcoming_head ?_
    rw [h1, List.getElem?_append_right (by omega), Nat.sub_self]; rfl
  have hlen : k = pre.length := by
    rcases Nat.lt_trichotomy k pre.length with hlt | heq | hgt
    · have := hpre k hlt
      rw [hx] at this
      cases this
      have := h4 _ (List.getElem_mem hlt)
      rw [hxt, hw] at this; cases this
    · exact heq
    · obtain ⟨w, hw1, hw2⟩ := hws pre.length hgt
      rw [hqt] at hw1
      cases hw1
      rw [h3] at hw2; cases hw2
  subst hlen
  rw [hqt] at hx
  cases hx
  exact ⟨pre, qt, post, h1, h2, hxt, h4, fun ht => List.eq_nil_of_length_eq_zero (hk ht), hrest⟩

theorem Is.peek {s : PState} (h : Is cfg s (t :: ts) c) (hw : t.tok.isWs = false) : ∃ sp, s.q.peek = ⟨t.tok, sp⟩ := by
  obtain ⟨pre, qt, post, h1, h2, h3, -⟩ := h.split hw
  refine ⟨qt.span, ?_⟩
  unfold TokenQueue.peek
  rw [h1, ← h2, List.getElem?_append_right (by omega), Nat.sub_self, ← h3]
  rfl

/-- Without skipping whitespace -/
theorem Is.peekAny {s : PState} (h : Is cfg s (t :: ts) c) (hw : t.tok.isWs = false) :
    ∃ tok sp, s.q.peekAny = ⟨tok, sp⟩ ∧ (tok = t.tok ∨ (t.tight = false ∧ tok = .whitespace)) := by
  obtain ⟨pre, qt, post, h1, h2, h3, h4, h5, -⟩ := h.split hw
  unfold TokenQueue.peekAny TokenQueue.peekAnyKeepingName
  rw [h1]
  cases pre with
  | nil => exact ⟨qt.tok, qt.span, rfl, Or.inl h3⟩
  | cons p pre =>
    refine ⟨p.tok, p.span, rfl, Or.inr ⟨?_, ?_⟩⟩
    · cases ht : t.tight with
      | false => rfl
      | true => cases h5 ht
    · have := h4 p (by simp)
      cases hp : p.tok <;> rw [hp] at this <;> first | rfl | cases this

theorem Gets.peek_bind {f : Nat → TokSpan → P β} (hw : t.tok.isWs = false)
    (h : ∀ sp, Gets cfg (fun n => f n ⟨t.tok, sp⟩) (t :: ts) c b ts' c') :
    Gets cfg (fun n => P.peek >>= f n) (t :: ts) c b ts' c' := by
  intro s hs
  obtain ⟨sp, hp⟩ := hs.peek hw
  obtain ⟨n0, s', h1, h2⟩ := h sp s hs
  refine ⟨n0, s', fun n hn => ?_, h2⟩
  show f n s.q.peek cfg s = _
  rw [hp]; exact h1 n hn

theorem Raises.peek_bind {k} {f : Nat → TokSpan → P β} (hw : t.tok.isWs = false)
    (h : ∀ sp, Raises cfg (fun n => f n ⟨t.tok, sp⟩) (t :: ts) c k) :
    Raises cfg (fun n => P.peek >>= f n) (t :: ts) c k := by
  intro s hs
  obtain ⟨sp, hp⟩ := hs.peek hw
  obtain ⟨n0, e, s', h1, h2⟩ := h sp s hs
  refine ⟨n0, e, s', fun n hn => ?_, h2⟩
  show f n s.q.peek cfg s = _
  rw [hp]; exact h1 n hn

theorem not_rejected {qt : QueuedTok} {e} (h : Named qt.tok = true) : ¬ Rejected cfg qt e := by
  rintro ⟨name, h1, _⟩
  rw [h1] at h; cases h

/-- The queue after a token has been read, in a state which is otherwise the same -/
theorem Is.after {s : PState} (h : Is cfg s ts' c) {pre post q'} (hq : s.q.queue = pre ++ post)
    (he : Ext cfg { s.q with queue := post } q') (hi : QInv q')
    (hc : Comes ((upcoming cfg s.q).drop pre.length) ts) : Is cfg { s with q := q' } ts c := by
  have hu := he.upcoming_drop hq
  obtain ⟨_, _, _, h3, h4, h5, _⟩ := he
  refine ⟨hi, fun i => ?_, ?_, ?_⟩
  · show ∃ x, upcoming cfg q' i = _
    rw [hu]; exact h.clean _
  · show Comes (upcoming cfg q') ts
    rw [hu]; exact hc
  · rw [← h.ctx]
    unfold PState.ctx
    simp only [h3, h4, h5]

/-- Reading a token, with the name it was written with -/
theorem Is.nextKeeping {s : PState} (h : Is cfg s (t :: ts) c) (hw : t.tok.isWs = false)
    (hn : Named t.tok.unwrapMath = true) :
    ∃ qt q', nextKeepingName cfg s.q = .ok qt q' ∧ qt.tok = t.tok.unwrapMath ∧ Is cfg { s with q := q' } ts c := by
  obtain ⟨pre, qt, post, h1, h2, h3, h4, -, h7⟩ := h.split hw
  have h1' : s.q.queue = (pre ++ [qt]) ++ post := by rw [h1]; simp
  rcases next_spec cfg s.q h.inv h1 h2 with ⟨q', h4, h5, h6, -⟩ | ⟨e, q', h4, h5, h6⟩
  · exact ⟨_, q', h4, by show qt.tok.unwrapMath = _; rw [h3], h.after h1' h5 h6 (by simpa using h7)⟩
  · exfalso
    rcases h6 with h6 | h6
    · obtain ⟨i, hi⟩ := h5.stream_error h1' h6
      obtain ⟨x, hx⟩ := h.clean i
      rw [hi] at hx; cases hx
    · exact not_rejected (by show Named qt.tok.unwrapMath = true; rw [h3]; exact hn) h6

/-- Reading a token -/
theorem Is.next {s : PState} (h : Is cfg s (t :: ts) c) (hw : t.tok.isWs = false)
    (hn : Named t.tok.unwrapMath = true) :
    ∃ sp q', P.next cfg s = .ok ⟨t.tok.unwrapMath, sp⟩ { s with q := q' } ∧ Is cfg { s with q := q' } ts c := by
  obtain ⟨qt, q', h1, h2, h3⟩ := h.nextKeeping hw hn
  refine ⟨qt.span, q', ?_, h3⟩
  unfold P.next liftQ St.zoom TokenQueue.next
  simp only [bind, St.bind, h1, Pure.pure, St.pure]
  rw [← h2]; rfl

theorem Gets.next_bind {f : Nat → TokSpan → P β} (hw : t.tok.isWs = false) (hn : Named t.tok.unwrapMath = true)
    (h : ∀ sp, Gets cfg (fun n => f n ⟨t.tok.unwrapMath, sp⟩) ts c b ts' c') :
    Gets cfg (fun n => P.next >>= f n) (t :: ts) c b ts' c' := by
  intro s hs
  obtain ⟨sp, q', h1, h2⟩ := hs.next hw hn
  obtain ⟨n0, s', h3, h4⟩ := h sp _ h2
  refine ⟨n0, s', fun n hn => ?_, h4⟩
  show St.bind P.next (f n) cfg s = _
  unfold St.bind
  rw [h1]; exact h3 n hn

theorem Raises.next_bind {k} {f : Nat → TokSpan → P β} (hw : t.tok.isWs = false)
    (hn : Named t.tok.unwrapMath = true)
    (h : ∀ sp, Raises cfg (fun n => f n ⟨t.tok.unwrapMath, sp⟩) ts c k) :
    Raises cfg (fun n => P.next >>= f n) (t :: ts) c k := by
  intro s hs
  obtain ⟨sp, q', h1, h2⟩ := hs.next hw hn
  obtain ⟨n0, e, s', h3, h4⟩ := h sp _ h2
  refine ⟨n0, e, s', fun n hn => ?_, h4⟩
  show St.bind P.next (f n) cfg s = _
  unfold St.bind
  rw [h1]; exact h3 n hn

theorem Is.nextAny {s : PState} (h : Is cfg s (t :: ts) c) (ht : t.tight = true) (hw : t.tok.isWs = false)
    (hn : Named t.tok = true) :
    ∃ sp q', P.nextAny cfg s = .ok ⟨t.tok, sp⟩ { s with q := q' } ∧ Is cfg { s with q := q' } ts c := by
  obtain ⟨pre, qt, post, h1, h2, h3, h4, h5, h7⟩ := h.split hw
  cases h5 ht
  have h1' : s.q.queue = [qt] ++ post := h1
  rcases nextAny_spec cfg s.q h.inv h1 with ⟨q', h4, h5, h6, -⟩ | ⟨e, q', h4, h5, h6⟩
  · refine ⟨qt.span, q', ?_, h.after h1' h5 h6 (by simpa using h7)⟩
    unfold P.nextAny liftQ St.zoom TokenQueue.nextAny
    simp only [bind, St.bind, h4, Pure.pure, St.pure]
    rw [← h3]; rfl
  · exfalso
    rcases h6 with h6 | h6
    · obtain ⟨i, hi⟩ := h5.stream_error h1' h6
      obtain ⟨x, hx⟩ := h.clean i
      rw [hi] at hx; cases hx
    · exact not_rejected (by rw [h3]; exact hn) h6

/-- The class of the first token which has one -/
def leadClass : List Tk → Class
  | [] => .ending
  | t :: ts => t.tok.cls.getD (leadClass ts)

/-- There is a token with a class. -/
def HasLead (ts : List Tk) : Prop := ∃ t ∈ ts, t.tok.cls.isSome

theorem leadClass_first {u : Stream} {p qt cl} (hu : Comes u ts) (hl : HasLead ts)
    (h : FirstAt u HasClass p qt) (hc : qt.tok.cls = some cl) : leadClass ts = cl := by
  induction ts generalizing u p with
  | nil => obtain ⟨t, ht, _⟩ := hl; cases ht
  | cons t ts ih =>
    obtain ⟨k, x, -, hws, hx, hxt, hrest⟩ := hu
    have hkp : k ≤ p := by
      refine Nat.le_of_not_lt fun hlt => ?_
      obtain ⟨w, hw, hww⟩ := hws p hlt
      rw [h.1] at hw
      cases hw
      have : qt.tok = .whitespace := by
        cases hq : qt.tok <;> rw [hq] at hww <;> first | rfl | cases hww
      rw [this] at hc; cases hc
    unfold leadClass
    rcases Nat.lt_or_eq_of_le hkp with hlt | rfl
    · obtain ⟨y, hy, hyc⟩ := h.2.2 k hlt
      rw [hx] at hy; cases hy
      unfold HasClass at hyc
      rw [hxt] at hyc
      have hnone : t.tok.cls = none := by
        cases hh : t.tok.cls with
        | none => rfl
        | some _ => rw [hh] at hyc; exact absurd rfl hyc
      rw [hnone]
      refine ih hrest ?_ (p := p - (k + 1)) ⟨?_, h.2.1, ?_⟩
      · obtain ⟨z, hz, hzc⟩ := hl
        rcases List.mem_cons.1 hz with rfl | hz
        · rw [hnone] at hzc; cases hzc
        · exact ⟨z, hz, hzc⟩
      · unfold Stream.drop
        rw [show k + 1 + (p - (k + 1)) = p by omega]; exact h.1
      · intro j hj
        exact h.2.2 (k + 1 + j) (by omega)
    · rw [h.1] at hx; cases hx
      rw [← hxt, hc]; rfl

theorem peekClass_ext (q : TokenQueue) (hq : QInv q) (hc : ∀ i, ∃ qt, upcoming cfg q i = .ok qt) :
    ∃ r q', TokenQueue.peekClassToken cfg q = .ok r q' ∧ Ext cfg q q' ∧ QInv q' := by
  unfold TokenQueue.peekClassToken
  simp only [bind, St.bind, St.get, Pure.pure]
  cases hcl : q.peek.tok.cls with
  | some cl => exact ⟨_, q, rfl, .refl _ _, hq⟩
  | none =>
    simp only [St.bind, St.get, St.pure]
    rcases findOrLoadAfterNext_spec search_class cfg q hq with
      ⟨r, q', init, t', post', h1, h2, h3, -⟩ | ⟨e, q', h1, h2⟩
    · rw [h1]; exact ⟨_, q', rfl, h2, h3⟩
    · obtain ⟨i, hi⟩ := h2.stream
      obtain ⟨x, hx⟩ := hc i
      rw [hi] at hx; cases hx

theorem Is.ext {s : PState} {q'} (h : Is cfg s ts c) (he : Ext cfg s.q q') (hi : QInv q') :
    Is cfg { s with q := q' } ts c := by
  have hu := he.upcoming
  obtain ⟨_, _, _, h3, h4, h5, _⟩ := he
  refine ⟨hi, ?_, ?_, ?_⟩
  · show ∀ i, ∃ x, upcoming cfg q' i = _
    rw [hu]; exact h.clean
  · show Comes (upcoming cfg q') ts
    rw [hu]; exact h.comes
  · rw [← h.ctx]
    unfold PState.ctx
    simp only [h3, h4, h5]

theorem Is.peekClass {s : PState} (hs : Is cfg s ts c) (hl : HasLead ts) :
    ∃ idx q', TokenQueue.peekClassToken cfg s.q = .ok (idx, leadClass ts) q' ∧ Is cfg { s with q := q' } ts c := by
  obtain ⟨⟨idx, cl⟩, q', h1, h2, h3⟩ := peekClass_ext s.q hs.inv hs.clean
  have hrun : runOp .peekClass cfg s.q = .ok (.cls cl) q' := by
    unfold runOp
    show St.bind _ _ _ _ = _
    unfold St.bind
    rw [h1]; rfl
  rcases runOp_spec cfg s.q hs.inv .peekClass with ⟨out, q1, g1, g2, g3⟩ | ⟨e, q1, g1, g2⟩
  · rw [hrun] at g1
    cases g1
    have key : leadClass ts = cl := by
      have hcomes := hs.comes
      generalize upcoming cfg s.q = u at g3 hcomes
      generalize upcoming cfg q' = u' at g3
      cases g3 with
      | peekClass g4 g5 => exact leadClass_first hcomes hl g4 g5
    rw [key]
    exact ⟨idx, q', h1, hs.ext h2 h3⟩
  · rw [hrun] at g1; cases g1

/-- Looking ahead for the next class -/
theorem Is.peekClassToken {s : PState} (hs : Is cfg s ts c) (hl : HasLead ts) (hv : c.verticalLineDef = none)
    (inSeq : Bool) : ∃ q', Model.peekClassToken inSeq cfg s = .ok (if inSeq then leadClass ts else .default)
      { s with q := q' } ∧ Is cfg { s with q := q' } ts c := by
  cases inSeq with
  | false => exact ⟨s.q, rfl, hs⟩
  | true =>
    obtain ⟨idx, q', h1, h2⟩ := hs.peekClass hl
    refine ⟨q', ?_, h2⟩
    have hvs : s.verticalLineDef = none := by rw [← hv, ← hs.ctx]; rfl
    unfold Model.peekClassToken
    simp only [Bool.not_true, Bool.false_eq_true, if_false, bind, St.bind, liftQ, St.zoom, h1, St.get, hvs]
    rfl

theorem Gets.peekClass_bind {inSeq : Bool} {f : Nat → Class → P β} (hl : HasLead ts) (hv : c.verticalLineDef = none)
    (h : Gets cfg (fun n => f n (if inSeq then leadClass ts else .default)) ts c b ts' c') :
    Gets cfg (fun n => Model.peekClassToken inSeq >>= f n) ts c b ts' c' := by
  intro s hs
  obtain ⟨q', h1, h2⟩ := hs.peekClassToken hl hv inSeq
  obtain ⟨n0, s', h3, h4⟩ := h _ h2
  refine ⟨n0, s', fun n hn => ?_, h4⟩
  show St.bind _ (f n) cfg s = _
  unfold St.bind
  rw [h1]; exact h3 n hn

theorem Raises.peekClass_bind {k} {inSeq : Bool} {f : Nat → Class → P β} (hl : HasLead ts)
    (hv : c.verticalLineDef = none)
    (h : Raises cfg (fun n => f n (if inSeq then leadClass ts else .default)) ts c k) :
    Raises cfg (fun n => Model.peekClassToken inSeq >>= f n) ts c k := by
  intro s hs
  obtain ⟨q', h1, h2⟩ := hs.peekClassToken hl hv inSeq
  obtain ⟨n0, e, s', h3, h4⟩ := h _ h2
  refine ⟨n0, e, s', fun n hn => ?_, h4⟩
  show St.bind _ (f n) cfg s = _
  unfold St.bind
  rw [h1]; exact h3 n hn

/-! ### Fuel -/

/-- One round of a recursive function -/
theorem Gets.step {F : Nat → P α} {G : Nat → P α} (hF : ∀ n, F (n + 1) = G n)
    (h : Gets cfg G ts c a ts' c') : Gets cfg F ts c a ts' c' := by
  intro s hs
  obtain ⟨n0, s', h1, h2⟩ := h s hs
  refine ⟨n0 + 1, s', fun n hn => ?_, h2⟩
  obtain ⟨k, rfl⟩ : ∃ k, n = k + 1 := ⟨n - 1, by omega⟩
  rw [hF]; exact h1 k (by omega)

theorem Raises.step {k} {F : Nat → P α} {G : Nat → P α} (hF : ∀ n, F (n + 1) = G n)
    (h : Raises cfg G ts c k) : Raises cfg F ts c k := by
  intro s hs
  obtain ⟨n0, e, s', h1, h2⟩ := h s hs
  refine ⟨n0 + 1, e, s', fun n hn => ?_, h2⟩
  obtain ⟨k, rfl⟩ : ∃ k, n = k + 1 := ⟨n - 1, by omega⟩
  rw [hF]; exact h1 k (by omega)

/-! ### The first pieces of the parser -/

theorem Gets.skipIf {b : Bool} (hw : t.tok.isWs = false) (hn : Named t.tok.unwrapMath = true) :
    Gets cfg (fun _ => P.skipIf b) (t :: ts) c () (if b then ts else t :: ts) c := by
  cases b with
  | false => exact Gets.pure
  | true => exact Gets.next_bind hw hn fun _ => Gets.pure

/-- Without a font command, letters are not merged. -/
theorem Gets.merge (ht : c.transform = none) : Gets cfg (fun _ => mergeAndTransformLetters) ts c none ts c := by
  refine Gets.get_bind fun s hs => ?_
  have : s.transform = none := by rw [← ht, ← hs]; rfl
  simp only [this]
  exact Gets.pure

end Verif

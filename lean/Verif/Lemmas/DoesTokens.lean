import Verif.Lemmas.Does
import Verif.Lemmas.Groups
/-! More rules for running the parser on known tokens: loops over tokens, and text in braces. -/
namespace Verif
open Model Spec Lexer' TokenQueue

variable {cfg : ParserConfig} {k : Ctx} {α β : Type} {m : Nat → P α} {f : Nat → α → P β}
  {ts ts' ts'' : List Tk} {l l' l'' : Loc} {a : α} {t : Tk} {c : Ctx}

theorem comes_first {u : Stream} (h : Comes u (t :: ts)) (hw : t.tok.isWs = false) :
    ∃ p qt, FirstAt u NonWs p qt ∧ qt.tok = t.tok ∧ Comes (u.drop (p + 1)) ts := by
  obtain ⟨p, qt, -, h1, h2, h3, h4⟩ := h
  refine ⟨p, qt, ⟨h2, by unfold NonWs; rw [h3]; exact hw, ?_⟩, h3, h4⟩
  intro j hj
  obtain ⟨w, hw1, hw2⟩ := h1 j hj
  exact ⟨w, hw1, by unfold NonWs; rw [hw2]; simp⟩

theorem firstAt_unique {u : Stream} {cond p p' x x'} (h : FirstAt u cond p x) (h' : FirstAt u cond p' x') :
    p = p' ∧ x = x' := by
  have hp : p = p' := by
    rcases Nat.lt_trichotomy p p' with hlt | heq | hgt
    · obtain ⟨y, hy, hn⟩ := h'.2.2 p hlt
      rw [h.1] at hy; cases hy
      exact absurd h.2.1 hn
    · exact heq
    · obtain ⟨y, hy, hn⟩ := h.2.2 p' hgt
      rw [h'.1] at hy; cases hy
      exact absurd h'.2.1 hn
  subst hp
  have := h.1
  rw [h'.1] at this
  exact ⟨rfl, (Except.ok.inj this).symm⟩

/-- Looking at the second token -/
theorem Is.peekSecond {s : PState} {t2 : Tk} (h : Is cfg s (t :: t2 :: ts) c) (hw : t.tok.isWs = false)
    (hw2 : t2.tok.isWs = false) :
    ∃ sp q', liftQ TokenQueue.peekSecond cfg s = .ok ⟨t2.tok, sp⟩ { s with q := q' } ∧
      Is cfg { s with q := q' } (t :: t2 :: ts) c := by
  have hext : ∃ r q', TokenQueue.peekSecond cfg s.q = .ok r q' ∧ Ext cfg s.q q' ∧ QInv q' := by
    unfold TokenQueue.peekSecond
    simp only [bind, St.bind, St.get, Pure.pure, St.pure]
    rcases findOrLoadAfterNext_spec search_nonWs cfg s.q h.inv with
      ⟨r, q', init, t', post', h1, h2, h3, -⟩ | ⟨e, q', h1, h2⟩
    · rw [h1]; exact ⟨_, q', rfl, h2, h3⟩
    · obtain ⟨i, hi⟩ := h2.stream
      obtain ⟨x, hx⟩ := h.clean i
      rw [hi] at hx; cases hx
  obtain ⟨r, q', h1, h2, h3⟩ := hext
  have hrun : runOp .peekSecond cfg s.q = .ok (.tok r) q' := by
    unfold runOp
    show St.bind _ _ _ _ = _
    unfold St.bind
    rw [h1]; rfl
  have key : r.tok = t2.tok := by
    rcases runOp_spec cfg s.q h.inv .peekSecond with ⟨out, q1, g1, g2, g3⟩ | ⟨e, q1, g1, g2⟩
    · rw [hrun] at g1
      cases g1
      have hcomes := h.comes
      generalize upcoming cfg s.q = u at g3 hcomes
      generalize upcoming cfg q' = u' at g3
      cases g3 with
      | peekSecond g4 g5 =>
        obtain ⟨p, x, e1, e2, e3⟩ := comes_first hcomes hw
        obtain ⟨p2, x2, e4, e5, -⟩ := comes_first e3 hw2
        obtain ⟨rfl, rfl⟩ := firstAt_unique e1 g4
        obtain ⟨rfl, rfl⟩ := firstAt_unique e4 g5
        exact e5
    · rw [hrun] at g1; cases g1
  refine ⟨r.span, q', ?_, h.ext h2 h3⟩
  unfold liftQ St.zoom
  rw [h1, ← key]

theorem Does.peekSecond_bind {r : Except LatexErrKind (β × Loc)} {t2 : Tk} {f : Nat → TokSpan → P β}
    (hw : t.tok.isWs = false) (hw2 : t2.tok.isWs = false)
    (h : ∀ sp, Does cfg k (fun n => f n ⟨t2.tok, sp⟩) (t :: t2 :: ts) l ts' r) :
    Does cfg k (fun n => liftQ TokenQueue.peekSecond >>= f n) (t :: t2 :: ts) l ts' r := by
  cases r with
  | error e =>
    intro s hs
    obtain ⟨sp, q', h1, h2⟩ := hs.peekSecond hw hw2
    obtain ⟨n0, e, s', h3, h4⟩ := h sp _ h2
    refine ⟨n0, e, s', fun n hn => ?_, h4⟩
    show St.bind _ (f n) cfg s = _
    unfold St.bind
    rw [h1]; exact h3 n hn
  | ok p =>
    intro s hs
    obtain ⟨sp, q', h1, h2⟩ := hs.peekSecond hw hw2
    obtain ⟨n0, s', h3, h4⟩ := h sp _ h2
    refine ⟨n0, s', fun n hn => ?_, h4⟩
    show St.bind _ (f n) cfg s = _
    unfold St.bind
    rw [h1]; exact h3 n hn

/-! ### The number of tokens -/

theorem comes_prefix {u : Stream} (h : Comes u (ts ++ ts')) : Comes u ts := by
  induction ts generalizing u with
  | nil => trivial
  | cons t ts ih =>
    obtain ⟨p, qt, h0, h1, h2, h3, h4⟩ := h
    exact ⟨p, qt, h0, h1, h2, h3, ih h4⟩

/-- Neither whitespace nor the end nor a command without meaning -/
def solid (t : Token) : Bool := !t.isWs && !t.isEoi && Named t.unwrapMath

theorem solid_iff {x : Token} : solid x = true ↔ x.isWs = false ∧ x.isEoi = false ∧ Named x.unwrapMath = true := by
  unfold solid
  simp [and_assoc]

/-- There are at least as many tokens to come as are expected. -/
theorem Is.count {s : PState} (h : Is cfg s ts c) (hs : ∀ t ∈ ts, solid t.tok = true) : ts.length ≤ cnt s.q := by
  induction ts generalizing s with
  | nil => exact Nat.zero_le _
  | cons t ts ih =>
    obtain ⟨hw, he, hn⟩ := solid_iff.1 (hs t List.mem_cons_self)
    obtain ⟨pre, qt, post, h1, h2, h3, h4, -, h7⟩ := h.split hw
    have h1' : s.q.queue = (pre ++ [qt]) ++ post := by rw [h1]; simp
    rcases next_spec cfg s.q h.inv h1 h2 with ⟨q', h4, h5, h6, -⟩ | ⟨e, q', h4, h5, h6⟩
    · have h8 := ih (h.after h1' h5 h6 (by simpa using h7)) (fun x hx => hs x (List.mem_cons_of_mem _ hx))
      have h9 := h5.cnt
      have h10 := @mu_drop one 1 s.q pre qt post h1
      have h11 : one qt.tok = 1 := by unfold one; rw [h3, he]; rfl
      have h8 : ts.length ≤ cnt q' := h8
      unfold cnt at h8 h9 ⊢
      rw [List.length_cons]
      omega
    · exfalso
      rcases h6 with h6 | h6
      · obtain ⟨i, hi⟩ := h5.stream_error h1' h6
        obtain ⟨x, hx⟩ := h.clean i
        rw [hi] at hx; cases hx
      · exact not_rejected (by show Named qt.tok.unwrapMath = true; rw [h3]; exact hn) h6

theorem Is.prefix {s : PState} (h : Is cfg s (ts ++ ts') c) : Is cfg s ts c := ⟨h.inv, h.clean, comes_prefix h.comes, h.ctx⟩

theorem Does.loopFuel_bind {r : Except LatexErrKind (β × Loc)} {f : Nat → Nat → P β}
    (hs : ∀ t ∈ ts, solid t.tok = true)
    (h : ∀ F, ts.length + 2 ≤ F → Does cfg k (fun n => f n F) (ts ++ ts'') l ts' r) :
    Does cfg k (fun n => P.loopFuel >>= f n) (ts ++ ts'') l ts' r := by
  cases r with
  | error e =>
    intro s hs'
    have h1 := hs'.prefix.count hs
    have h2 := cnt_loopFuel s.q
    exact h s.q.loopFuel (by omega) s hs'
  | ok p =>
    intro s hs'
    have h1 := hs'.prefix.count hs
    have h2 := cnt_loopFuel s.q
    exact h s.q.loopFuel (by omega) s hs'

/-! ### Text in braces -/

/-- A token without whitespace in front of it -/
theorem Is.head {s : PState} (h : Is cfg s (t :: ts) c) (ht : t.tight = true) :
    ∃ qt post, s.q.queue = qt :: post ∧ qt.tok = t.tok ∧ Comes ((upcoming cfg s.q).drop 1) ts := by
  obtain ⟨k, x, hk, hws, hx, hxt, hrest⟩ := h.comes
  cases hk ht
  obtain ⟨pre, qt, post, h1, -⟩ := h.inv.split
  obtain ⟨t0, rest, h0⟩ : ∃ t0 rest, s.q.queue = t0 :: rest := by
    rw [h1]; cases pre <;> simp
  rw [upcoming_head (t := t0) (by rw [h0]; rfl)] at hx
  cases hx
  exact ⟨_, _, h0, hxt, hrest⟩

theorem Is.nextAnyKeeping {s : PState} (h : Is cfg s (t :: ts) c) (ht : t.tight = true) (hn : Named t.tok = true) :
    ∃ qt q', nextAnyKeepingName cfg s.q = .ok qt q' ∧ qt.tok = t.tok ∧ Is cfg { s with q := q' } ts c := by
  obtain ⟨qt, post, h1, h3, h7⟩ := h.head ht
  have h1' : s.q.queue = [qt] ++ post := h1
  rcases nextAny_spec cfg s.q h.inv h1 with ⟨q', h4, h5, h6, -⟩ | ⟨e, q', h4, h5, h6⟩
  · exact ⟨qt, q', h4, h3, h.after h1' h5 h6 (by simpa using h7)⟩
  · exfalso
    rcases h6 with h6 | h6
    · obtain ⟨i, hi⟩ := h5.stream_error h1' h6
      obtain ⟨x, hx⟩ := h.clean i
      rw [hi] at hx; cases hx
    · exact not_rejected (by rw [h3]; exact hn) h6

/-- Characters of text -/
theorem textual {x : Token} {ch : Char} (h : recoverLimitedAscii x = some ch) :
    Named x = true ∧ x.isEoi = false ∧ x.isGroupBegin = false ∧ x ≠ .groupEnd ∧ x ≠ .eoi := by
  cases x <;> first | (cases h; done) | exact ⟨rfl, rfl, rfl, (fun e => nomatch e), (fun e => nomatch e)⟩

theorem Is.recordText {s : PState} {text : List Token} {str : Str} {acc : List QueuedTok} {fuel : Nat}
    (ht : plainText text = some str)
    (h : Is cfg s (tight text ++ ⟨.groupEnd, true⟩ :: ts) c) (hf : text.length < fuel) :
    ∃ toks stop q', recordGroupLoop true fuel 0 acc cfg s.q = .ok (acc ++ toks, stop) q' ∧
      toks.map (·.tok) = text ∧ Is cfg { s with q := q' } ts c := by
  induction text generalizing s str acc fuel with
  | nil =>
    obtain ⟨fuel, rfl⟩ : ∃ k, fuel = k + 1 := ⟨fuel - 1, by have : 0 < fuel := hf; omega⟩
    obtain ⟨qt, q', h1, h2, h3⟩ := h.nextAnyKeeping rfl rfl
    refine ⟨[], qt.span.stop, q', ?_, rfl, h3⟩
    rw [recordGroupLoop_succ]
    unfold St.bind
    simp only [if_true, h1, groupCont, h2, List.append_nil]
    rfl
  | cons x text ih =>
    obtain ⟨fuel, rfl⟩ : ∃ k, fuel = k + 1 := ⟨fuel - 1, by have : _ < fuel := hf; omega⟩
    unfold plainText at ht
    cases hx : recoverLimitedAscii x with
    | none => rw [hx] at ht; cases ht
    | some ch =>
      cases hp : plainText text with
      | none => rw [hx, hp] at ht; cases ht
      | some str' =>
        obtain ⟨g1, g2, g3, g4, g5⟩ := textual hx
        obtain ⟨qt, q', h1, h2, h3⟩ := h.nextAnyKeeping rfl g1
        obtain ⟨toks, stop, q'', h4, h5, h6⟩ := ih hp (acc := acc ++ [qt]) (fuel := fuel) h3
          (by rw [List.length_cons] at hf; omega)
        refine ⟨qt :: toks, stop, q'', ?_, by simp [h2, h5], h6⟩
        have h2' : qt.tok = x := h2
        have hg : groupCont true fuel 0 acc qt = recordGroupLoop true fuel 0 (acc ++ [qt]) := by
          unfold groupCont
          rw [h2']
          clear h h3 ih h4 h6 h2 h2' ht
          cases x <;> first | exact absurd rfl g4 | exact absurd rfl g5 | rfl | (cases g3; done)
        rw [recordGroupLoop_succ]
        unfold St.bind
        simp only [if_true, h1, hg]
        have h4 : recordGroupLoop true fuel 0 (acc ++ [qt]) cfg q' = .ok (acc ++ [qt] ++ toks, stop) q'' := h4
        rw [h4]; simp

theorem literalText_plain {toks : List QueuedTok} {text : List Token} {str : Str} (h : toks.map (·.tok) = text)
    (ht : plainText text = some str) : literalText (toks.map QueuedTok.ts) = .ok str := by
  induction toks generalizing text str with
  | nil => subst h; cases ht; rfl
  | cons x toks ih =>
    subst h
    rw [List.map_cons] at ht
    unfold plainText at ht
    rw [List.map_cons]
    unfold literalText
    cases hx : recoverLimitedAscii x.tok with
    | none => rw [hx] at ht; cases ht
    | some ch =>
      cases hp : plainText (toks.map (·.tok)) with
      | none => rw [hx, hp] at ht; cases ht
      | some str' =>
        rw [hx, hp] at ht
        cases ht
        show (match recoverLimitedAscii x.tok with | none => _ | some c => _) = _
        rw [hx, ih rfl hp]

theorem plainText_count {text : List Token} {str : Str} (ht : plainText text = some str) {s : PState}
    (h : Is cfg s (tight text ++ ts) c) : text.length ≤ cnt s.q := by
  induction text generalizing s str with
  | nil => exact Nat.zero_le _
  | cons x text ih =>
    unfold plainText at ht
    cases hx : recoverLimitedAscii x with
    | none => rw [hx] at ht; cases ht
    | some ch =>
      cases hp : plainText text with
      | none => rw [hx, hp] at ht; cases ht
      | some str' =>
        obtain ⟨g1, g2, g3, g4, g5⟩ := textual hx
        obtain ⟨qt, post, h1, h3, h7⟩ := Is.head h rfl
        have h1' : s.q.queue = [qt] ++ post := h1
        rcases nextAny_spec cfg s.q h.inv h1 with ⟨q', h4, h5, h6, -⟩ | ⟨e, q', h4, h5, h6⟩
        · have h8 := ih hp (h.after h1' h5 h6 h7)
          have h8 : text.length ≤ cnt q' := h8
          have h9 := h5.cnt
          have h10 := @mu_drop one 1 s.q [] qt post h1
          have h11 : one qt.tok = 1 := by unfold one; rw [h3, g2]; rfl
          unfold cnt at h8 h9 ⊢
          rw [List.length_cons]
          omega
        · exfalso
          rcases h6 with h6 | h6
          · obtain ⟨i, hi⟩ := h5.stream_error h1' h6
            obtain ⟨x, hx⟩ := h.clean i
            rw [hi] at hx; cases hx
          · exact not_rejected (by rw [h3]; exact g1) h6

/-- Text in braces -/
theorem Is.stringLiteral {s : PState} {text : List Token} {str : Str} (ht : plainText text = some str)
    (h : Is cfg s (⟨.groupBegin, false⟩ :: tight text ++ ⟨.groupEnd, true⟩ :: ts) c) :
    ∃ sp q', parseStringLiteral cfg s = .ok (str, sp) { s with q := q' } ∧ Is cfg { s with q := q' } ts c := by
  have h : Is cfg s (⟨.groupBegin, false⟩ :: (tight text ++ ⟨.groupEnd, true⟩ :: ts)) c := h
  obtain ⟨sp, hp⟩ := h.peek rfl
  obtain ⟨qt, q1, h1, h2, h3⟩ := h.nextKeeping rfl rfl
  have hc := plainText_count ht h3
  have hc2 := cnt_loopFuel q1
  have hc : text.length ≤ cnt q1 := hc
  obtain ⟨toks, stop, q2, h4, h5, h6⟩ := h3.recordText (acc := []) (fuel := q1.loopFuel) ht (by omega)
  have h4 : recordGroupLoop true q1.loopFuel 0 [] cfg q1 = .ok ([] ++ toks, stop) q2 := h4
  refine ⟨⟨sp.start, stop⟩, q2, ?_, h6⟩
  have hr : readArgument true cfg s.q = .ok (.group (toks.map QueuedTok.ts) ⟨sp.start, stop⟩) q2 := by
    unfold readArgument
    simp only [bind, St.bind, St.get, TokenQueue.next, h1, Pure.pure, St.pure, if_true, hp, Token.isGroupBegin,
      recordGroup, h4]
    rfl
  unfold parseStringLiteral
  show St.bind _ _ _ _ = _
  unfold St.bind liftQ St.zoom
  rw [hr]
  show St.bind _ _ _ _ = _
  unfold St.bind St.ofExcept
  simp only [literalText_plain h5 ht]
  rfl

theorem Does.stringLiteral_bind {r : Except LatexErrKind (β × Loc)} {f : Nat → Str × Span → P β}
    {text : List Token} {str : Str} (ht : plainText text = some str)
    (h : ∀ sp, Does cfg k (fun n => f n (str, sp)) ts l ts' r) :
    Does cfg k (fun n => parseStringLiteral >>= f n)
      (⟨.groupBegin, false⟩ :: tight text ++ ⟨.groupEnd, true⟩ :: ts) l ts' r := by
  cases r with
  | error e =>
    intro s hs
    obtain ⟨sp, q', h1, h2⟩ := hs.stringLiteral ht
    obtain ⟨n0, e, s', h3, h4⟩ := h sp _ h2
    refine ⟨n0, e, s', fun n hn => ?_, h4⟩
    show St.bind _ (f n) cfg s = _
    unfold St.bind
    rw [h1]; exact h3 n hn
  | ok p =>
    intro s hs
    obtain ⟨sp, q', h1, h2⟩ := hs.stringLiteral ht
    obtain ⟨n0, s', h3, h4⟩ := h sp _ h2
    refine ⟨n0, s', fun n hn => ?_, h4⟩
    show St.bind _ (f n) cfg s = _
    unfold St.bind
    rw [h1]; exact h3 n hn

end Verif

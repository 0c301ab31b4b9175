import Verif.Spec.Preamble
import Verif.Lemmas.Exec
import Verif.Lemmas.Groups
import Verif.Lemmas.Raw
/-! Reading a source of which the next things are known, where the definitions in force may change. -/
namespace Verif
open Model Spec Lexer' TokenQueue

/-- The next things in the source are these, all of the source can be tokenised, and the parser is in state `c`
otherwise. -/
structure Ahead (cfg : ParserConfig) (s : PState) (outs : List LexerOutput) (c : Ctx) : Prop where
  inv : QInv s.q
  all : ∀ i, ∃ o, RawOut o ∧ upcoming cfg s.q i = .ok (resolveLexed cfg s.q.stores o) ∧
    ∀ o', outs[i]? = some o' → o = o'
  ctx : s.ctx = c

variable {cfg : ParserConfig} {s : PState} {outs rest : List LexerOutput} {c : Ctx}

theorem Ahead.clean (h : Ahead cfg s outs c) (i : Nat) : ∃ qt, upcoming cfg s.q i = .ok qt := by
  obtain ⟨o, -, h1, -⟩ := h.all i
  exact ⟨_, h1⟩

theorem Ahead.fresh (h : Ahead cfg s outs c) (i : Nat) (o : LexerOutput) (ho : outs[i]? = some o) :
    upcoming cfg s.q i = .ok (resolveLexed cfg s.q.stores o) := by
  obtain ⟨o', -, h1, h2⟩ := h.all i
  rw [← h2 o ho]; exact h1

theorem Ahead.raw (h : Ahead cfg s outs c) {o : LexerOutput} (ho : o ∈ outs) : RawOut o := by
  obtain ⟨i, hi, rfl⟩ := List.getElem_of_mem ho
  obtain ⟨o', h0, h1, h2⟩ := h.all i
  rw [← h2 _ (List.getElem?_eq_getElem hi)]; exact h0

theorem isWs_tok {st : CmdStores} {o : LexerOutput} (h : isWs o = true) : tokOf cfg st o = .whitespace := by
  unfold Spec.isWs at h
  split at h
  · rfl
  · cases h

theorem notWs_tok {st : CmdStores} {o : LexerOutput} (h : isWs o = false) : (tokOf cfg st o).isWs = false := by
  cases o with
  | token t =>
    obtain ⟨t, sp⟩ := t
    show t.isWs = false
    cases t <;> first | rfl | cases h
  | commandName name sp =>
    show ((known cfg st name).getD _).isWs = false
    cases hk : known cfg st name with
    | none => rfl
    | some t =>
      rcases @resolve_cases .nothing _ _ _ _ rfl hk with ⟨_, _, _, _, _, rfl⟩ | hb
      · rfl
      · exact ((@builtinOkB_iff .nothing _).1 hb).2.2.2

theorem isWs_of_tok {st : CmdStores} {o : LexerOutput} {t : Token} (h : tokOf cfg st o = t) (ht : t.isWs = false) :
    isWs o = false := by
  cases hw : isWs o with
  | false => rfl
  | true => rw [isWs_tok hw] at h; rw [← h] at ht; cases ht

/-- The tokens which are next are in the queue. -/
theorem Ahead.split {w : List LexerOutput} {o : LexerOutput} (h : Ahead cfg s (w ++ o :: rest) c) (hw : Blanks w)
    (ho : isWs o = false) : ∃ post, s.q.queue = w.map (resolveLexed cfg s.q.stores) ++
      resolveLexed cfg s.q.stores o :: post ∧ w.length = s.q.nextNonWs := by
  obtain ⟨pre, t, post, h1, h2, h3, h4⟩ := h.inv.split
  have hpre : ∀ (j : Nat) (hj : j < pre.length), upcoming cfg s.q j = .ok pre[j] := by
    intro j hj
    refine upcoming_head ?_
    rw [h1, List.getElem?_append_left hj, List.getElem?_eq_getElem hj]
  have ht : upcoming cfg s.q pre.length = .ok t := by
    refine upcoming_head ?_
    rw [h1, List.getElem?_append_right (by omega), Nat.sub_self]; rfl
  have hwj : ∀ (j : Nat) (hj : j < w.length), upcoming cfg s.q j = .ok (resolveLexed cfg s.q.stores w[j]) := by
    intro j hj
    exact h.fresh j _ (by rw [List.getElem?_append_left hj, List.getElem?_eq_getElem hj])
  have hoj : upcoming cfg s.q w.length = .ok (resolveLexed cfg s.q.stores o) :=
    h.fresh _ _ (by rw [List.getElem?_append_right (by omega), Nat.sub_self]; rfl)
  have hlen : w.length = pre.length := by
    rcases Nat.lt_trichotomy w.length pre.length with hlt | heq | hgt
    · have := hpre _ hlt
      rw [hoj] at this
      have h5 := h4 _ (List.getElem_mem hlt)
      rw [← Except.ok.inj this] at h5
      have h6 := notWs_tok (cfg := cfg) (st := s.q.stores) ho
      unfold tokOf at h6
      rw [h6] at h5; cases h5
    · exact heq
    · have := hwj _ hgt
      rw [ht] at this
      have h5 := isWs_tok (cfg := cfg) (st := s.q.stores) (hw _ (List.getElem_mem hgt))
      unfold tokOf at h5
      rw [← Except.ok.inj this] at h5
      rw [h5] at h3; cases h3
  refine ⟨post, ?_, by omega⟩
  rw [h1]
  have e1 : pre = w.map (resolveLexed cfg s.q.stores) := by
    refine List.ext_getElem (by simp [hlen]) fun j hj hj' => ?_
    have := hpre j hj
    rw [hwj j (by omega)] at this
    rw [List.getElem_map]
    exact (Except.ok.inj this).symm
  have e2 : t = resolveLexed cfg s.q.stores o := by
    rw [hlen, ht] at hoj
    exact Except.ok.inj hoj
  rw [e1, e2]

/-- After some of it has been read -/
theorem Ahead.after {w : List LexerOutput} {pre post : List QueuedTok} {q' : TokenQueue}
    (h : Ahead cfg s (w ++ rest) c) (hq : s.q.queue = pre ++ post) (hl : w.length = pre.length)
    (he : Ext cfg { s.q with queue := post } q') (hi : QInv q') : Ahead cfg { s with q := q' } rest c := by
  have hu := he.upcoming_drop hq
  obtain ⟨_, _, _, h3, h4, h5, _⟩ := he
  refine ⟨hi, fun i => ?_, ?_⟩
  · obtain ⟨o, g1, g2, g3⟩ := h.all (pre.length + i)
    refine ⟨o, g1, ?_, fun o' ho => g3 o' ?_⟩
    · show upcoming cfg q' i = .ok (resolveLexed cfg q'.stores o)
      rw [hu, h3]
      exact g2
    · rw [List.getElem?_append_right (by omega), hl, Nat.add_sub_cancel_left]
      exact ho
  · rw [← h.ctx]
    unfold PState.ctx
    simp only [h3, h4, h5]

theorem Ahead.stores (h : Ahead cfg s outs c) : s.q.stores = c.stores := congrArg Ctx.stores h.ctx

theorem Ahead.no_lex_error {pre post : List QueuedTok} {q' : TokenQueue} {e : LatexError} (h : Ahead cfg s outs c)
    (hq : s.q.queue = pre ++ post) (he : ReadErr cfg { s.q with queue := post } e q') : False := by
  obtain ⟨i, hi⟩ := he.1.stream_error hq he.2
  obtain ⟨x, hx⟩ := h.clean i
  rw [hi] at hx; cases hx

theorem Ahead.peek {w : List LexerOutput} {o : LexerOutput} (h : Ahead cfg s (w ++ o :: rest) c) (hw : Blanks w)
    (ho : isWs o = false) : s.q.peek = (resolveLexed cfg c.stores o).ts := by
  obtain ⟨post, h1, h2⟩ := h.split hw ho
  rw [← h.stores]
  exact peek_eq h1 (by simpa using h2)

/-- Reading something, which may be a command without meaning -/
theorem Ahead.nextUnresolved {w : List LexerOutput} {o : LexerOutput} (h : Ahead cfg s (w ++ o :: rest) c)
    (hw : Blanks w) (ho : isWs o = false) : ∃ q', nextAllowingUnresolved cfg s.q =
      .ok (resolveLexed cfg c.stores o).unwrapMath q' ∧ Ahead cfg { s with q := q' } rest c := by
  obtain ⟨post, h1, h2⟩ := h.split hw ho
  have h1' : s.q.queue = (w.map (resolveLexed cfg s.q.stores) ++ [resolveLexed cfg s.q.stores o]) ++ post := by
    rw [h1]; simp
  rcases nextAllowing_spec cfg s.q h.inv h1 (by simpa using h2) with ⟨q', h4, h5, h6⟩ | ⟨e, q', h4, h5⟩
  · rw [← h.stores]
    refine ⟨q', h4, ?_⟩
    refine Ahead.after (w := w ++ [o]) (by simpa using h) h1' (by simp) h5 h6
  · exact (h.no_lex_error h1' h5).elim

theorem Ahead.nextKeeping {w : List LexerOutput} {o : LexerOutput} (h : Ahead cfg s (w ++ o :: rest) c) (hw : Blanks w)
    (ho : isWs o = false) (hn : Named (tokOf cfg c.stores o).unwrapMath = true) : ∃ q', nextKeepingName cfg s.q =
      .ok (resolveLexed cfg c.stores o).unwrapMath q' ∧ Ahead cfg { s with q := q' } rest c := by
  obtain ⟨q', h1, h2⟩ := h.nextUnresolved hw ho
  refine ⟨q', ?_, h2⟩
  unfold nextKeepingName
  simp only [bind, St.bind, h1, rejectUnknownCommand, St.config]
  have hn' : Named (resolveLexed cfg c.stores o).unwrapMath.tok = true := hn
  revert hn'
  generalize (resolveLexed cfg c.stores o).unwrapMath = x
  obtain ⟨t, sp, n⟩ := x
  cases t <;> first | (intro h; cases h; done) | (intro _; rfl)

theorem Ahead.next {w : List LexerOutput} {o : LexerOutput} (h : Ahead cfg s (w ++ o :: rest) c) (hw : Blanks w)
    (ho : isWs o = false) (hn : Named (tokOf cfg c.stores o).unwrapMath = true) : ∃ q', P.next cfg s =
      .ok (resolveLexed cfg c.stores o).unwrapMath.ts { s with q := q' } ∧ Ahead cfg { s with q := q' } rest c := by
  obtain ⟨q', h1, h2⟩ := h.nextKeeping hw ho hn
  refine ⟨q', ?_, h2⟩
  unfold P.next liftQ St.zoom TokenQueue.next
  simp only [bind, St.bind, h1, Pure.pure, St.pure]

/-- The first thing, whitespace or not -/
theorem Ahead.head {o : LexerOutput} (h : Ahead cfg s (o :: rest) c) :
    ∃ post, s.q.queue = resolveLexed cfg c.stores o :: post := by
  obtain ⟨pre, t, post, hs, -⟩ := h.inv.split
  have h0 := h.fresh 0 o rfl
  rw [h.stores] at h0
  cases hq : s.q.queue with
  | nil => rw [hq] at hs; cases pre <;> cases hs
  | cons x xs =>
    refine ⟨xs, ?_⟩
    rw [upcoming_head (by rw [hq]; rfl)] at h0
    rw [Except.ok.inj h0]

theorem Ahead.peekAny {o : LexerOutput} (h : Ahead cfg s (o :: rest) c) :
    s.q.peekAnyKeepingName = resolveLexed cfg c.stores o := by
  obtain ⟨post, h1⟩ := h.head
  unfold peekAnyKeepingName
  rw [h1]; rfl

theorem Ahead.nextAnyUnknown {o : LexerOutput} (h : Ahead cfg s (o :: rest) c) : ∃ q', nextAnyAllowingUnknown cfg s.q =
      .ok (resolveLexed cfg c.stores o) q' ∧ Ahead cfg { s with q := q' } rest c ∧
      cnt q' + one (tokOf cfg c.stores o) ≤ cnt s.q := by
  obtain ⟨post, h1⟩ := h.head
  have h1' : s.q.queue = [resolveLexed cfg c.stores o] ++ post := h1
  rcases nextAnyAllowing_spec cfg s.q h.inv h1 with ⟨q', h4, h5, h6⟩ | ⟨e, q', h4, h5⟩
  · refine ⟨q', h4, Ahead.after (w := [o]) h h1' rfl h5 h6, ?_⟩
    have h7 := h5.cnt
    have h8 := @mu_drop one 1 s.q [] _ post h1
    unfold cnt at h7 ⊢
    unfold tokOf
    omega
  · exact (h.no_lex_error h1' h5).elim

theorem Ahead.nextAny {o : LexerOutput} (h : Ahead cfg s (o :: rest) c) (hn : Named (tokOf cfg c.stores o) = true) :
    ∃ q', P.nextAny cfg s = .ok (resolveLexed cfg c.stores o).ts { s with q := q' } ∧
      Ahead cfg { s with q := q' } rest c ∧ cnt q' + one (tokOf cfg c.stores o) ≤ cnt s.q := by
  obtain ⟨q', h1, h2⟩ := h.nextAnyUnknown
  refine ⟨q', ?_, h2⟩
  unfold P.nextAny liftQ St.zoom TokenQueue.nextAny nextAnyKeepingName
  simp only [bind, St.bind, h1, rejectUnknownCommand, St.config]
  have hn' : Named (resolveLexed cfg c.stores o).tok = true := hn
  revert hn'
  generalize (resolveLexed cfg c.stores o) = x
  obtain ⟨t, sp, n⟩ := x
  cases t <;> first | (intro h; cases h; done) | (intro _; rfl)

/-! ### Groups -/

theorem groupEnd_depth {d : Nat} {l : List Token} {k : Nat} (h : braceDepth d (.groupEnd :: l) = some k) :
    ∃ d', d = d' + 1 ∧ braceDepth d' l = some k := by
  cases d with
  | zero => cases h
  | succ d => exact ⟨d, rfl, h⟩

theorem Ahead.recordLoop {body : List LexerOutput} {rb : LexerOutput} : ∀ {s : PState} {d fuel : Nat}
    {acc : List QueuedTok}, Ahead cfg s (body ++ rb :: rest) c → tokOf cfg c.stores rb = .groupEnd →
    braceDepth d (body.map (tokOf cfg c.stores)) = some 0 → (∀ o ∈ body, tokOf cfg c.stores o ≠ .eoi) →
    cnt s.q < fuel → ∃ q', recordMacroBodyLoop fuel d acc cfg s.q =
      .ok (acc ++ body.map (resolveLexed cfg c.stores)) q' ∧ Ahead cfg { s with q := q' } (rb :: rest) c := by
  induction body with
  | nil =>
    intro s d fuel acc h hrb hd _ hf
    obtain ⟨fuel, rfl⟩ : ∃ k, fuel = k + 1 := ⟨fuel - 1, by omega⟩
    cases hd
    refine ⟨s.q, ?_, h⟩
    rw [recordMacroBodyLoop_succ, h.peekAny]
    have hrb' : (resolveLexed cfg c.stores rb).tok = .groupEnd := hrb
    unfold bodyCont
    rw [hrb']
    simp [Pure.pure, St.pure]
  | cons o body ih =>
    intro s d fuel acc h hrb hd he hf
    obtain ⟨fuel, rfl⟩ : ∃ k, fuel = k + 1 := ⟨fuel - 1, by omega⟩
    have hne := he o (by simp)
    obtain ⟨q', h1, h2, h3⟩ := h.nextAnyUnknown
    have hone : one (tokOf cfg c.stores o) = 1 := by
      unfold one
      cases hx : tokOf cfg c.stores o <;> first | rfl | exact absurd hx hne
    have hcnt : cnt q' < fuel := by omega
    rw [List.map_cons, braceDepth_cons] at hd
    obtain ⟨d', hd1, hd2⟩ := Option.bind_eq_some_iff.1 hd
    obtain ⟨q'', h4, h5⟩ := ih (s := { s with q := q' }) (d := d') (fuel := fuel)
      (acc := acc ++ [resolveLexed cfg c.stores o]) h2 hrb hd2 (fun x hx => he x (by simp [hx])) hcnt
    refine ⟨q'', ?_, h5⟩
    rw [recordMacroBodyLoop_succ, h.peekAny]
    have hgo : St.bind nextAnyAllowingUnknown (fun _ => recordMacroBodyLoop fuel d'
        (acc ++ [resolveLexed cfg c.stores o])) cfg s.q = .ok (acc ++ (o :: body).map (resolveLexed cfg c.stores)) q'' := by
      unfold St.bind
      rw [h1]
      dsimp only
      rw [h4]
      simp
    rw [← hgo]
    unfold depthStep tokOf at hd1
    unfold tokOf at hne
    unfold bodyCont
    revert hd1 hne
    generalize (resolveLexed cfg c.stores o) = x
    obtain ⟨t, sp, n⟩ := x
    intro hne hd1
    cases t <;> first
      | exact absurd rfl hne
      | (cases Option.some.inj hd1; rfl)
      | (cases d with
         | zero => cases hd1
         | succ d => cases Option.some.inj hd1; rfl)

theorem Ahead.group {w l body : List LexerOutput} (h : Ahead cfg s (w ++ (l ++ rest)) c) (hw : Blanks w)
    (hl : GroupPart cfg c.stores body l) : ∃ q' rb, recordMacroBody cfg s.q =
      .ok (body.map (resolveLexed cfg c.stores)) q' ∧ Ahead cfg { s with q := q' } (rb :: rest) c ∧
      tokOf cfg c.stores rb = .groupEnd := by
  obtain ⟨hlb, hrb, hd, he⟩ := hl
  rename_i lb rb
  have h' : Ahead cfg s (w ++ lb :: (body ++ rb :: rest)) c := by simpa using h
  obtain ⟨q1, h1, h2⟩ := h'.nextKeeping hw (isWs_of_tok hlb rfl) (by rw [hlb]; rfl)
  obtain ⟨q2, h3, h4⟩ := h2.recordLoop (d := 0) (fuel := q1.loopFuel) (acc := []) hrb hd he
    (by have := cnt_loopFuel q1; show cnt q1 < _; omega)
  refine ⟨q2, rb, ?_, h4, hrb⟩
  unfold recordMacroBody TokenQueue.next
  simp only [bind, St.bind, h1, Pure.pure, St.pure, St.get]
  simpa using h3

end Verif

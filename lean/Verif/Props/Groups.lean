import Verif.Lemmas.Groups
/-! Property C39: groups in braces. -/
namespace Verif
open Model Spec TokenQueue

/-- C39. Reading a group, after its opening brace, returns exactly the tokens up to the matching closing
brace, and afterwards the stream is behind that brace. Otherwise it fails, because the group is not closed
before the end, or the source cannot be tokenised, or it contains a command without meaning. -/
theorem C39_group (cfg : ParserConfig) (keep : Bool) (q : TokenQueue) (hq : QInv q) :
    (∃ toks stop q' l close, recordGroup keep cfg q = .ok (toks, stop) q' ∧ QInv q' ∧
      GroupAt keep (upcoming cfg q) l close ∧ toks = allAsRead keep l ∧ stop = close.span.stop ∧
      upcoming cfg q' = (upcoming cfg q).drop (l.length + 1)) ∨
    (∃ e q', recordGroup keep cfg q = .err e q' ∧
      ((∃ l eoi, Unclosed keep (upcoming cfg q) l eoi ∧ e = eoi.span.err (.unclosedGroup .groupClose)) ∨
       (∃ i, upcoming cfg q i = .error e) ∨
       (∃ l t name, UnknownIn keep (upcoming cfg q) l t name ∧ cfg.ignoreUnknownCommands = false ∧
          e = t.span.err (.unknownCommand name)))) := by
  have h := recordGroupLoop_spec cfg keep q.loopFuel 0 [] q hq (by have := cnt_loopFuel q; omega)
  have he : recordGroup keep cfg q = recordGroupLoop keep q.loopFuel 0 [] cfg q := rfl
  rw [he]
  rcases h with ⟨toks, stop, q', h1, h2, -, -, h3⟩ | ⟨e, q', h1, h2⟩
  · generalize hu : upcoming cfg q' = u' at h3
    cases h3 with
    | close l close k1 k2 k3 k4 k5 =>
      exact Or.inl ⟨_, _, q', l, close, h1, h2, ⟨k1, k2, k3, k4, k5⟩, by simp, rfl, hu⟩
  · refine Or.inr ⟨e, q', h1, ?_⟩
    cases h2 with
    | eoi l eoi k1 k2 k3 k4 k5 => exact Or.inl ⟨l, eoi, ⟨k1, k2, k3, k4, k5⟩, rfl⟩
    | lex i e k => exact Or.inr (Or.inl ⟨i, k⟩)
    | unknown l t name k1 k2 k3 k4 k5 k6 => exact Or.inr (Or.inr ⟨l, t, name, ⟨k1, k2, k3, k5, k6⟩, k4, rfl⟩)

theorem startsWith_take {u : Stream} {l m : List QueuedTok} (h : StartsWith u l) (h' : StartsWith u m)
    (hlen : l.length ≤ m.length) : l = m.take l.length := by
  apply List.ext_getElem
  · simp; omega
  · intro i h1 h2
    have e1 := h i h1
    have e2 := h' i (by omega)
    rw [e1] at e2
    rw [List.getElem_take]
    exact Except.ok.inj e2

theorem braceDepth_closes {d : Nat} {l : List Token} (h : braceDepth d l = some 0) (rest : List Token) :
    braceDepth d (l ++ .groupEnd :: rest) = none := by
  rw [braceDepth_append, h]; rfl

/-- A prefix of a stream followed by a given token, in a longer prefix -/
theorem startsWith_split {u : Stream} {l m : List QueuedTok} {t : QueuedTok} (h : StartsWith u l)
    (ht : u l.length = .ok t) (h' : StartsWith u m) (hlen : l.length < m.length) :
    ∃ rest, m = l ++ t :: rest := by
  refine ⟨m.drop (l.length + 1), ?_⟩
  have h1 := startsWith_take h h' (by omega)
  have h2 : m[l.length] = t := by
    have := h' l.length hlen
    rw [ht] at this; exact (Except.ok.inj this).symm
  conv => lhs; rw [← List.take_append_drop l.length m, ← h1, List.drop_eq_getElem_cons hlen, h2]

/-- C39. There is at most one matching brace. -/
theorem C39_unique {keep : Bool} {u : Stream} {l close l' close'} (h : GroupAt keep u l close)
    (h' : GroupAt keep u l' close') : l = l' ∧ close = close' := by
  have aux : ∀ {l close l' close'}, GroupAt keep u l close → GroupAt keep u l' close' →
      ¬ l.length < l'.length := by
    intro l close l' close' h h' hlt
    obtain ⟨rest, hr⟩ := startsWith_split h.starts h.after h'.starts hlt
    have := h'.balanced
    rw [hr, List.map_append, List.map_cons, h.isClose, braceDepth_closes h.balanced] at this
    cases this
  have hlen : l.length = l'.length := by
    have h1 := aux h h'
    have h2 := aux h' h
    omega
  have hl : l = l' := by
    have := startsWith_take h.starts h'.starts (by omega)
    rw [hlen, List.take_length] at this; exact this
  subst hl
  have := h.after
  rw [h'.after] at this
  exact ⟨rfl, (Except.ok.inj this).symm⟩

/-- C39. If the stream ends before the group is closed, there is no matching brace. -/
theorem C39_unclosed_none {keep : Bool} {u : Stream} {l eoi} (h : Unclosed keep u l eoi) :
    ¬ ∃ l' close, GroupAt keep u l' close := by
  rintro ⟨l', close, h'⟩
  rcases Nat.lt_trichotomy l'.length l.length with hlt | heq | hgt
  · obtain ⟨rest, hr⟩ := startsWith_split h'.starts h'.after h.starts hlt
    have := h.stacked
    rw [hr, List.map_append, List.map_cons, h'.isClose, braceDepth_closes h'.balanced] at this
    cases this
  · have h1 := h.after
    rw [← heq, h'.after] at h1
    have h2 := h.isEoi
    rw [← Except.ok.inj h1, h'.isClose] at h2
    cases h2
  · obtain ⟨rest, hr⟩ := startsWith_split h.starts h.after h'.starts hgt
    have := h'.noEnd eoi (by rw [hr]; simp)
    rw [h.isEoi] at this
    cases this

/-- C39. A group in which every command has a meaning does not fail because of an unknown command. -/
theorem C39_unknown_none {keep : Bool} {u : Stream} {l t name l' close} (h : UnknownIn keep u l t name)
    (h' : GroupAt keep u l' close) : t ∈ l' := by
  rcases Nat.lt_trichotomy l'.length l.length with hlt | heq | hgt
  · obtain ⟨rest, hr⟩ := startsWith_split h'.starts h'.after h.starts hlt
    have := h.stacked
    rw [hr, List.map_append, List.map_cons, h'.isClose, braceDepth_closes h'.balanced] at this
    cases this
  · have h1 := h.after
    rw [← heq, h'.after] at h1
    have h2 := h.isUnknown
    rw [← Except.ok.inj h1, h'.isClose] at h2
    cases h2
  · obtain ⟨rest, hr⟩ := startsWith_split h.starts h.after h'.starts hgt
    rw [hr]; simp

/-- C39. If the whole source can be tokenised and all commands have a meaning, reading a group succeeds
exactly if there is a matching brace. -/
theorem C39_iff (cfg : ParserConfig) (keep : Bool) (q : TokenQueue) (hq : QInv q)
    (hlex : ∀ i e, upcoming cfg q i ≠ .error e)
    (hknown : ∀ i t name, upcoming cfg q i = .ok t → (asRead keep t).tok ≠ .unresolvedCommand name) :
    (∃ toks stop q', recordGroup keep cfg q = .ok (toks, stop) q') ↔
      ∃ l close, GroupAt keep (upcoming cfg q) l close := by
  rcases C39_group cfg keep q hq with ⟨toks, stop, q', l, close, h1, -, h2, -⟩ | ⟨e, q', h1, h2⟩
  · exact ⟨fun _ => ⟨l, close, h2⟩, fun _ => ⟨toks, stop, q', h1⟩⟩
  · rw [h1]
    rcases h2 with ⟨l, eoi, h2, -⟩ | ⟨i, h2⟩ | ⟨m, t, name, h2, -⟩
    · exact ⟨fun ⟨_, _, _, h⟩ => (nomatch h), fun h => absurd h (C39_unclosed_none h2)⟩
    · exact absurd h2 (hlex i e)
    · exact absurd h2.isUnknown (hknown _ t name h2.after)

/-- C39. The same for the body of a definition, which may contain commands without a meaning. (The opening
brace has been read, and the closing one is left in the stream.) -/
theorem C39_body (cfg : ParserConfig) (q : TokenQueue) (hq : QInv q) :
    (∃ toks q' close, recordMacroBodyLoop q.loopFuel 0 [] cfg q = .ok toks q' ∧ QInv q' ∧
      GroupAt true (upcoming cfg q) toks close ∧ upcoming cfg q' = (upcoming cfg q).drop toks.length) ∨
    (∃ e q', recordMacroBodyLoop q.loopFuel 0 [] cfg q = .err e q' ∧
      ((∃ l eoi, Unclosed true (upcoming cfg q) l eoi ∧ e = eoi.span.err (.unclosedGroup .groupClose)) ∨
       (∃ i, upcoming cfg q i = .error e))) := by
  rcases recordMacroBodyLoop_spec cfg q.loopFuel 0 [] q hq (by have := cnt_loopFuel q; omega) with
    ⟨toks, q', h1, h2, -, -, h3⟩ | ⟨e, q', h1, h2⟩
  · generalize hu : upcoming cfg q' = u' at h3
    cases h3 with
    | close l close k1 k2 k3 k4 k5 =>
      refine Or.inl ⟨_, q', close, h1, h2, ⟨k1, k2, k3, ?_, k5⟩, hu⟩
      simpa [asRead] using k4
  · refine Or.inr ⟨e, q', h1, ?_⟩
    cases h2 with
    | eoi l eoi k1 k2 k3 k4 k5 =>
      refine Or.inl ⟨l, eoi, ⟨k1, k2, k3, ?_, k5⟩, rfl⟩
      simpa [asRead] using k4
    | lex i e k => exact Or.inr ⟨i, k⟩

/-- The source of a group after its opening brace, with groups in it, and what follows -/
def exampleGroup : Str := c!"a{b {c}} \\frac12} d"

example : (match TokenQueue.new {} exampleGroup {} with
    | .ok _ q => match recordGroup false {} q with
      | .ok (toks, stop) q' => (toks.length, stop, q'.peek.span.start)
      | _ => (0, 0, 0)
    | _ => (0, 0, 0)) = (10, 17, 18) := by decide +kernel

example : (match TokenQueue.new {} c!"a{b}" {} with
    | .ok _ q => match recordGroup true {} q with
      | .err e _ => (e.start, match e.kind with | .unclosedGroup .groupClose => true | _ => false)
      | _ => (0, false)
    | _ => (0, false)) = (4, true) := by decide +kernel

end Verif

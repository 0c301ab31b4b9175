import Verif.Lemmas.Lexer
/-! Properties C04 and C07 (positions), for the tokeniser. -/
namespace Verif
open Model Spec Lexer'

/-! ### C04 -/

/-- Reading more tokens than there are makes no difference. -/
theorem readTokens_enough (n m : Nat) (l : Lexer) (hn : l.rest.length < n) (hm : l.rest.length < m) :
    readTokens n l = readTokens m l := by
  induction n generalizing l m with
  | zero => omega
  | succ n ih =>
    cases m with
    | zero => omega
    | succ m =>
      unfold readTokens
      cases h : l.nextToken with
      | error e => rfl
      | ok r =>
        obtain ⟨out, l'⟩ := r
        simp only
        cases he : isEoi out with
        | true => rfl
        | false =>
          obtain ⟨gap, text, after, hk⟩ := nextToken_ok h
          have ht := hk.progress he
          have := congrArg List.length hk.rest
          have ht' : 0 < text.length := List.length_pos_iff.2 ht
          simp only [List.length_append] at this
          rw [ih m l' (by omega) (by omega)]

/-- What `C04_terminates` says about the tokens read from a point of the source. -/
theorem readTokens_spec (n : Nat) (l : Lexer) (hn : l.rest.length < n) :
    (readTokens n l).1.length ≤ l.rest.length + 1 ∧
    ((∃ e, (readTokens n l).2 = some e ∧ ∀ o ∈ (readTokens n l).1, isEoi o = false) ∨
     ((readTokens n l).2 = none ∧ ∃ outs, (readTokens n l).1 = outs ++
        [.token ⟨.eoi, ⟨l.pos + blen l.rest, l.pos + blen l.rest⟩⟩] ∧
        ∀ o ∈ outs, isEoi o = false)) := by
  induction n generalizing l with
  | zero => omega
  | succ n ih =>
    unfold readTokens
    cases h : l.nextToken with
    | error e => exact ⟨by simp, Or.inl ⟨e, rfl, by simp⟩⟩
    | ok r =>
      obtain ⟨out, l'⟩ := r
      simp only
      obtain ⟨gap, text, after, hk⟩ := nextToken_ok h
      have hrest := congrArg List.length hk.rest
      have hbl := congrArg blen hk.rest
      simp only [List.length_append] at hrest
      simp only [blen_append] at hbl
      cases he : isEoi out with
      | true =>
        simp only [if_true]
        refine ⟨by simp, Or.inr ⟨trivial, [], ?_, by simp⟩⟩
        obtain ⟨rfl, rfl, h3⟩ := hk.eoi he
        have hspan := hk.span
        rw [h3] at hbl
        simp only [blen_nil, Nat.add_zero] at hbl hspan
        rw [← hbl] at hspan
        match out, he, hspan with
        | .token ⟨.eoi, s⟩, _, hs =>
          simp only [outSpan] at hs
          rw [hs]; rfl
      | false =>
        simp only [Bool.false_eq_true, if_false]
        have ht' : 0 < text.length := List.length_pos_iff.2 (hk.progress he)
        obtain ⟨i1, i2⟩ := ih l' (by omega)
        refine ⟨by simp; omega, ?_⟩
        rcases i2 with ⟨e, h1, h2⟩ | ⟨h1, outs, h2, h3⟩
        · refine Or.inl ⟨e, h1, ?_⟩
          intro o ho
          rcases List.mem_cons.1 ho with rfl | ho
          · exact he
          · exact h2 o ho
        · refine Or.inr ⟨h1, out :: outs, ?_, ?_⟩
          · rw [h2, hk.pos]
            have : l.pos + blen gap + blen text + blen after + blen l'.rest = l.pos + blen l.rest := by
              omega
            rw [this]; rfl
          · intro o ho
            rcases List.mem_cons.1 ho with rfl | ho
            · exact he
            · exact h3 o ho

/-- C04: reading the tokens of any source ends, after at most one token more than it has
characters: either with an error, or with the end-of-input token, which lies at the end of the
source and is the only one. -/
theorem C04_terminates (source : Str) :
    (tokensOf source).1.length ≤ source.length + 1 ∧
    ((∃ e, (tokensOf source).2 = some e ∧ ∀ o ∈ (tokensOf source).1, isEoi o = false) ∨
     ((tokensOf source).2 = none ∧ ∃ outs, (tokensOf source).1 = outs ++
        [.token ⟨.eoi, ⟨blen source, blen source⟩⟩] ∧ ∀ o ∈ outs, isEoi o = false)) := by
  have := readTokens_spec (source.length + 1) (Lexer.new source) (Nat.lt_succ_self _)
  simpa [Lexer.new, tokensOf] using this

/-- C04: `tokensOf` is not cut off: with any larger number of reads the result is the same. -/
theorem C04_complete (source : Str) (n : Nat) (hn : source.length < n) :
    readTokens n (Lexer.new source) = tokensOf source :=
  readTokens_enough _ _ _ hn (Nat.lt_succ_self _)

/-- C04: at the end, the tokeniser stays there. -/
theorem C04_stays (l l' : Lexer) (out : LexerOutput) (h : l.nextToken = .ok (out, l'))
    (he : isEoi out = true) : l'.nextToken = .ok (out, l') := by
  obtain ⟨gap, text, after, hk⟩ := nextToken_ok h
  obtain ⟨rfl, rfl, h3⟩ := hk.eoi he
  have hspan := hk.span
  have hpos := hk.pos
  simp only [blen_nil, Nat.add_zero] at hpos hspan
  rw [← hpos] at hspan
  match out, he, hspan with
  | .token ⟨.eoi, s⟩, _, hs =>
    obtain ⟨p, r⟩ := l'
    simp only at h3 hs
    subst h3
    simp only [outSpan] at hs
    subst hs
    rfl

/-- The tokens cover the text from some point on: each one stands for a piece of the source, and
what lies before it and after it is blank. A command name stands for a backslash and the name. -/
inductive Covers (source : Str) : Nat → List LexerOutput → Prop
  | nil (p : Nat) : Covers source p []
  | cons (p : Nat) (gap text : Str) (out : LexerOutput) (outs : List LexerOutput) :
      At source p (outSpan out).start gap → Blank gap →
      At source (outSpan out).start (outSpan out).stop text →
      (∀ n s, out = .commandName n s → text = '\\' :: n) →
      Covers source (outSpan out).stop outs → Covers source p (out :: outs)

theorem blank_ws {a b : Str} (ha : ∀ c ∈ a, isAsciiWs c) (hb : Blank b) : Blank (a ++ b) :=
  blank_append ha hb

/-- `pending` is whitespace which was skipped after the last token. -/
theorem covers_aux (source pre pending : Str) (n : Nat) (l : Lexer)
    (hs : source = pre ++ pending ++ l.rest) (hp : l.pos = blen pre + blen pending)
    (hw : ∀ c ∈ pending, isAsciiWs c) : Covers source (blen pre) (readTokens n l).1 := by
  induction n generalizing l pre pending with
  | zero => exact .nil _
  | succ n ih =>
    unfold readTokens
    cases h : l.nextToken with
    | error e => exact .nil _
    | ok r =>
      obtain ⟨out, l'⟩ := r
      obtain ⟨gap, text, after, hk⟩ := nextToken_ok h
      have hcons : ∀ outs, Covers source (outSpan out).stop outs →
          Covers source (blen pre) (out :: outs) := by
        intro outs ho
        refine .cons _ (pending ++ gap) text out outs ?_ (blank_ws hw hk.gapBlank) ?_ hk.name ho
        · refine ⟨pre, text ++ after ++ l'.rest, ?_, rfl, ?_⟩
          · rw [hs, hk.rest]; simp
          · rw [hk.span, blen_append, hp]; simp only; omega
        · refine ⟨pre ++ pending ++ gap, after ++ l'.rest, ?_, ?_, ?_⟩
          · rw [hs, hk.rest]; simp
          · rw [hk.span, blen_append, blen_append, hp]
          · rw [hk.span]
      have hstop : (outSpan out).stop = blen (pre ++ pending ++ gap ++ text) := by
        rw [hk.span]; simp only [blen_append]; omega
      simp only
      split
      · exact hcons _ (.nil _)
      · refine hcons _ ?_
        rw [hstop]
        refine ih (pre ++ pending ++ gap ++ text) after l' ?_ ?_ hk.afterWs
        · rw [hs, hk.rest]; simp
        · rw [hk.pos, hp]; simp only [blen_append]

/-- C04: the spans of the tokens lie inside the source, in order and on character boundaries, and
the text between consecutive spans (and before the first) is only whitespace and comments. -/
theorem C04_covers (source : Str) : Covers source 0 (tokensOf source).1 := by
  have := covers_aux source [] [] (source.length + 1) (Lexer.new source) rfl rfl (by simp)
  exact this

/-- A case with a comment, a command, an environment and several kinds of characters. -/
example : (tokensOf c!"a %x\n\\frac é\\begin {align}#2").1.map outSpan =
    [⟨0, 1⟩, ⟨1, 2⟩, ⟨5, 10⟩, ⟨11, 13⟩, ⟨13, 27⟩, ⟨27, 29⟩, ⟨29, 29⟩] := by decide +kernel

example : (tokensOf c!"a\\begin{nope}b").2 = some ⟨7, 13, .unknownEnvironment c!"nope"⟩ := by
  decide +kernel

/-! ### C07 -/

theorem err_aux (source pre : Str) (n : Nat) (l : Lexer) (hs : source = pre ++ l.rest)
    (hp : l.pos = blen pre) (e : LatexError) (he : (readTokens n l).2 = some e) :
    ∃ text, At source e.start e.stop text := by
  induction n generalizing l pre with
  | zero => simp [readTokens] at he
  | succ n ih =>
    unfold readTokens at he
    cases h : l.nextToken with
    | error e' =>
      rw [h] at he
      simp only [Option.some.injEq] at he
      subst he
      obtain ⟨a, t, b, h1, h2, h3⟩ := nextTokenFuel_err h
      refine ⟨t, pre ++ a, b, by rw [hs, h1]; simp, ?_, by omega⟩
      rw [blen_append]; omega
    | ok r =>
      obtain ⟨out, l'⟩ := r
      rw [h] at he
      simp only at he
      split at he
      · cases he
      · obtain ⟨gap, text, after, hk⟩ := nextToken_ok h
        refine ih (pre ++ gap ++ text ++ after) l' ?_ ?_ he
        · rw [hs, hk.rest]; simp
        · rw [hk.pos, hp]; simp only [blen_append]

/-- C07: the span of a tokeniser error is a piece of the source, on character boundaries. -/
theorem C07_lexer_error_inside (source : Str) (e : LatexError) (he : (tokensOf source).2 = some e) :
    ∃ text, At source e.start e.stop text :=
  err_aux source [] (source.length + 1) (Lexer.new source) rfl rfl e he

theorem floorPrefix_append (pre post : Str) : floorPrefix (pre ++ post) (blen pre) = pre := by
  induction pre with
  | nil =>
    cases post with
    | nil => rfl
    | cons c cs => have := utf8Size_pos c; simp [floorPrefix]; omega
  | cons c cs ih =>
    simp only [List.cons_append, floorPrefix, blen_cons]
    rw [if_pos (by omega), show c.utf8Size + blen cs - c.utf8Size = blen cs by omega, ih]

/-- C07: hence the message for a tokeniser error gives the number of characters in front of it. -/
theorem C07_lexer_error_column (source : Str) (e : LatexError)
    (he : (tokensOf source).2 = some e) :
    ∃ pre text post, source = pre ++ text ++ post ∧ blen pre = e.start ∧
      e.message source = decimal pre.length ++ c!": " ++ e.errorMessage := by
  obtain ⟨text, pre, post, h1, h2, -⟩ := C07_lexer_error_inside source e he
  refine ⟨pre, text, post, h1, h2, ?_⟩
  unfold LatexError.message toMessage
  rw [h1, List.append_assoc pre, ← h2, floorPrefix_append]
  rfl

example : (tokensOf c!"é #x").2.map (LatexError.message · c!"é #x") =
    some c!"3: Invalid parameter number. Must be 1-9." := by decide +kernel

end Verif

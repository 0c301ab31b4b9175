import Verif.Spec.Lexing
/-! What a single read of the tokeniser does. -/
namespace Verif
open Model Spec
namespace Lexer'
open Model.Lexer

theorem readWhile_spec (p : Char → Bool) (pos : Nat) (s : Str) :
    ∃ a b, readWhile p pos s = (a, ⟨pos + blen a, b⟩) ∧ s = a ++ b ∧ (∀ c ∈ a, p c) ∧
      (∀ c cs, b = c :: cs → p c = false) := by
  induction s generalizing pos with
  | nil => exact ⟨[], [], rfl, rfl, by simp, by simp⟩
  | cons c cs ih =>
    unfold readWhile
    by_cases h : p c
    · rw [if_pos h]
      obtain ⟨a, b, h1, h2, h3, h4⟩ := ih (pos + c.utf8Size)
      refine ⟨c :: a, b, ?_, by rw [h2]; rfl, ?_, h4⟩
      · rw [h1]; simp [Nat.add_assoc]
      · intro x hx
        rcases List.mem_cons.1 hx with rfl | hx
        · exact h
        · exact h3 x hx
    · rw [if_neg h]
      refine ⟨[], c :: cs, rfl, rfl, by simp, ?_⟩
      intro x xs hx
      cases hx
      simpa using h

/-- `readWhile` on a text whose maximal prefix is known. -/
theorem readWhile_eq (p : Char → Bool) (pos : Nat) (a b : Str) (ha : ∀ c ∈ a, p c = true)
    (hb : ∀ c cs, b = c :: cs → p c = false) :
    readWhile p pos (a ++ b) = (a, ⟨pos + blen a, b⟩) := by
  induction a generalizing pos with
  | nil =>
    cases b with
    | nil => rfl
    | cons c cs =>
      have := hb c cs rfl
      simp [readWhile, this]
  | cons c cs ih =>
    simp only [List.cons_append]
    rw [readWhile, if_pos (ha c (List.mem_cons_self ..)),
      ih _ (fun x hx => ha x (List.mem_cons_of_mem _ hx))]
    simp [Nat.add_assoc]

theorem skipWhitespace_spec (l : Lexer) :
    ∃ a b, l.rest = a ++ b ∧ (∀ c ∈ a, isAsciiWs c) ∧ (∀ c cs, b = c :: cs → isAsciiWs c = false) ∧
      l.skipWhitespace.2 = ⟨l.pos + blen a, b⟩ ∧
      ((a = [] ∧ l.skipWhitespace.1 = none) ∨
       ∃ c cs, a = c :: cs ∧ l.skipWhitespace.1 = some ⟨l.pos, l.pos + c.utf8Size⟩) := by
  obtain ⟨a, b, h1, h2, h3, h4⟩ := readWhile_spec isAsciiWs l.pos l.rest
  refine ⟨a, b, h2, h3, h4, ?_, ?_⟩
  · unfold skipWhitespace; rw [h1]; cases a <;> rfl
  · unfold skipWhitespace; rw [h1]
    cases a with
    | nil => exact Or.inl ⟨rfl, rfl⟩
    | cons c cs => exact Or.inr ⟨c, cs, rfl, rfl⟩

theorem star_size : '*'.utf8Size = 1 := by decide
theorem lbrace_size : '{'.utf8Size = 1 := by decide
theorem rbrace_size : '}'.utf8Size = 1 := by decide

theorem ascii_size {d : Char} (h : d.toNat < 128) : d.utf8Size = 1 := by
  have h3 : d.val ≤ 0x7f := by
    rw [UInt32.le_iff_toNat_le]
    have : d.toNat = d.val.toNat := rfl
    have : (0x7f : UInt32).toNat = 127 := rfl
    omega
  exact if_pos h3

theorem digit_size {d : Char} (h : isAsciiDigit d) : d.utf8Size = 1 := by
  apply ascii_size
  simp only [isAsciiDigit, Bool.and_eq_true, decide_eq_true_eq] at h
  have h2 : d.val.toNat ≤ '9'.val.toNat := h.2
  have : '9'.val.toNat = 57 := rfl
  have : d.toNat = d.val.toNat := rfl
  omega

theorem readCommand_spec (l : Lexer) :
    ∃ name b, l.rest = name ++ b ∧ l.readCommand = (name, l.pos + blen name, ⟨l.pos + blen name, b⟩) ∧
      (name = [] → b = []) := by
  obtain ⟨a, b, h1, h2, h3, h4⟩ := readWhile_spec isAsciiAlpha l.pos l.rest
  unfold readCommand
  rw [h1]
  simp only
  cases b with
  | nil =>
    rw [show readStar a ⟨l.pos + blen a, []⟩ = (a, ⟨l.pos + blen a, []⟩) from rfl]
    cases a with
    | nil =>
      refine ⟨[], [], by simpa using h2, ?_, by simp⟩
      simp [readChar]
    | cons c cs =>
      have := utf8Size_pos c
      refine ⟨c :: cs, [], by simpa using h2, ?_, by simp⟩
      simp only
      rw [if_neg (by simp; omega)]
  | cons d ds =>
    by_cases hd : d = '*'
    · subst hd
      rw [show readStar a ⟨l.pos + blen a, '*' :: ds⟩ =
        (a ++ c!"*", ⟨l.pos + blen a + '*'.utf8Size, ds⟩) from rfl]
      refine ⟨a ++ c!"*", ds, by rw [h2]; simp, ?_, by simp⟩
      have := star_size
      simp only
      rw [if_neg (by omega), blen_append]
      simp [Nat.add_assoc]
    · rw [show readStar a ⟨l.pos + blen a, d :: ds⟩ = (a, ⟨l.pos + blen a, d :: ds⟩) from
        if_neg hd]
      cases a with
      | nil =>
        refine ⟨[d], ds, by simpa using h2, ?_, by simp⟩
        simp [readChar]
      | cons c cs =>
        have := utf8Size_pos c
        refine ⟨c :: cs, d :: ds, h2, ?_, by simp⟩
        simp only
        rw [if_neg (by simp; omega)]

/-- What `read_env_name` does. -/
theorem readEnvName_ok {l : Lexer} {name stop l'} (h : l.readEnvName = .ok (name, stop, l')) :
    ∃ a, l.rest = a ++ l'.rest ∧ l' = ⟨l.pos + blen a, l'.rest⟩ ∧ stop = l.pos + blen a ∧ a ≠ [] := by
  unfold readEnvName at h
  cases hr : l.rest with
  | nil => simp [readChar, hr] at h
  | cons c cs =>
    rw [readChar, hr] at h
    simp only at h
    by_cases hc : c = '{'
    · subst hc
      simp only at h
      obtain ⟨a, b, h1, h2, -, -⟩ := readWhile_spec isEnvChar (l.pos + '{'.utf8Size) cs
      rw [h1] at h
      simp only at h
      cases b with
      | nil => simp [readChar] at h
      | cons d ds =>
        rw [readChar] at h
        simp only at h
        by_cases hd : d = '}'
        · subst hd
          simp only [Except.ok.injEq, Prod.mk.injEq] at h
          obtain ⟨rfl, rfl, rfl⟩ := h
          refine ⟨'{' :: (a ++ c!"}"), ?_, ?_, ?_, by simp⟩
          · rw [h2]; simp
          · simp [blen_append, Nat.add_assoc]
          · simp [blen_append, Nat.add_assoc, rbrace_size]
        · exfalso
          revert h
          split
          · rename_i heq; simp at heq; exact fun _ => hd heq.1.2
          · simp
          · simp
    · revert h
      split
      · rename_i heq; simp at heq; exact absurd heq.1.2 hc
      · rename_i heq
        simp only [Prod.mk.injEq, Option.some.injEq] at heq
        obtain ⟨⟨rfl, rfl⟩, rfl⟩ := heq
        split
        · intro h
          simp only [Except.ok.injEq, Prod.mk.injEq] at h
          obtain ⟨rfl, rfl, rfl⟩ := h
          exact ⟨[c], rfl, by simp, by simp, by simp⟩
        · intro h; cases h
      · rename_i heq; simp at heq

theorem readEnvName_err {l : Lexer} {oc s} (h : l.readEnvName = .error (oc, s)) :
    ∃ a t b, l.rest = a ++ t ++ b ∧ s = ⟨l.pos + blen a, l.pos + blen a + blen t⟩ := by
  unfold readEnvName at h
  cases hr : l.rest with
  | nil =>
    simp [readChar, hr] at h
    exact ⟨[], [], [], rfl, by rw [← h.2]; simp⟩
  | cons c cs =>
    rw [readChar, hr] at h
    simp only at h
    by_cases hc : c = '{'
    · subst hc
      simp only at h
      obtain ⟨a, b, h1, h2, -, -⟩ := readWhile_spec isEnvChar (l.pos + '{'.utf8Size) cs
      rw [h1] at h
      simp only at h
      cases b with
      | nil =>
        simp [readChar] at h
        exact ⟨'{' :: a, [], [], by rw [h2]; simp, by rw [← h.2]; simp [Nat.add_assoc]⟩
      | cons d ds =>
        rw [readChar] at h
        simp only at h
        revert h
        split
        · intro h; cases h
        · rename_i heq
          simp only [Prod.mk.injEq, Option.some.injEq] at heq
          obtain ⟨⟨rfl, rfl⟩, rfl⟩ := heq
          intro h
          simp only [Except.error.injEq, Prod.mk.injEq] at h
          exact ⟨'{' :: a, [d], ds, by rw [h2]; simp, by rw [← h.2]; simp [Nat.add_assoc]⟩
        · rename_i heq; simp at heq
    · revert h
      split
      · rename_i heq; simp at heq; exact absurd heq.1.2 hc
      · rename_i heq
        simp only [Prod.mk.injEq, Option.some.injEq] at heq
        obtain ⟨⟨rfl, rfl⟩, rfl⟩ := heq
        split
        · intro h; cases h
        · intro h
          simp only [Except.error.injEq, Prod.mk.injEq] at h
          exact ⟨[], [c], cs, rfl, by rw [← h.2]; simp⟩
      · rename_i heq; simp at heq

/-- A successful read: what was skipped, what the token stands for, and what was skipped after. -/
structure ReadOk (l : Lexer) (out : LexerOutput) (l' : Lexer) (gap text after : Str) : Prop where
  rest : l.rest = gap ++ text ++ after ++ l'.rest
  pos : l'.pos = l.pos + blen gap + blen text + blen after
  gapBlank : Blank gap
  afterWs : ∀ c ∈ after, isAsciiWs c
  span : outSpan out = ⟨l.pos + blen gap, l.pos + blen gap + blen text⟩
  eoi : isEoi out = true → text = [] ∧ after = [] ∧ l'.rest = []
  progress : isEoi out = false → text ≠ []
  name : ∀ n s, out = .commandName n s → text = '\\' :: n
  afterNoWs : isWs out = true → ∀ c cs, l'.rest = c :: cs → isAsciiWs c = false

theorem paramToken_ok {l : Lexer} {loc out l'} (hloc : l.pos = loc + 1)
    (h : l.paramToken loc = .ok (out, l')) :
    ∃ d k, l.rest = d :: l'.rest ∧ l'.pos = loc + 2 ∧
      out = .token ⟨.customCmdArgInput k, ⟨loc, loc + 2⟩⟩ ∧ isAsciiDigit d := by
  unfold paramToken at h
  cases hr : l.rest with
  | nil => rw [hr] at h; cases h
  | cons d ds =>
    rw [hr] at h
    simp only at h
    split at h
    · rename_i hd
      split at h
      · simp only [Except.ok.injEq, Prod.mk.injEq] at h
        obtain ⟨rfl, rfl⟩ := h
        refine ⟨d, d.toNat - '1'.toNat, by simp [readChar, hr], ?_, rfl, hd⟩
        have := digit_size hd
        simp [readChar, hr, this]; omega
      · cases h
    · cases h

theorem envMarker_ok {l : Lexer} {span mk out l'} (h : l.envMarker span mk = .ok (out, l')) :
    ∃ a e, l.rest = a ++ l'.rest ∧ l'.pos = l.pos + blen a ∧ out = .token ⟨mk e, ⟨span.start, l'.pos⟩⟩ := by
  unfold envMarker at h
  obtain ⟨w, b, h1, -, -, h2, -⟩ := skipWhitespace_spec l
  simp only [h2] at h
  split at h
  · cases h
  · cases h
  · rename_i name stop l2 hname
    obtain ⟨a, ha1, ha2, ha3, ha4⟩ := readEnvName_ok hname
    split at h
    · cases h
    · rename_i env henv
      simp only [Except.ok.injEq, Prod.mk.injEq] at h
      obtain ⟨rfl, rfl⟩ := h
      simp only at ha1 ha2 ha3
      have hp : l2.pos = l.pos + blen w + blen a := by rw [ha2]
      refine ⟨w ++ a, env, by rw [h1, ha1]; simp, ?_, ?_⟩
      · rw [hp, blen_append]; omega
      · rw [ha3, hp]

theorem charToken_plain (c : Char) (s : Span) :
    isEoi (.token ⟨charToken c, s⟩) = false ∧ isWs (.token ⟨charToken c, s⟩) = false := by
  unfold charToken
  split <;> first
    | exact ⟨rfl, rfl⟩
    | (split
       · exact ⟨rfl, rfl⟩
       · split
         · exact ⟨rfl, rfl⟩
         · unfold getOperatorFromUnicode
           split
           · rename_i heq
             simp only [Option.map_eq_some_iff] at heq
             obtain ⟨t, -, rfl⟩ := heq
             exact ⟨rfl, rfl⟩
           · exact ⟨rfl, rfl⟩)

/-- A successful read of a token which begins with a character that was just read. -/
theorem tokenAt_ok {l : Lexer} {loc ch out l'} (hloc : l.pos = loc + ch.utf8Size)
    (h : l.tokenAt loc ch = .ok (out, l')) :
    ∃ text after, ch :: l.rest = text ++ after ++ l'.rest ∧
      l'.pos = loc + blen text + blen after ∧ (∀ c ∈ after, isAsciiWs c) ∧
      outSpan out = ⟨loc, loc + blen text⟩ ∧ isEoi out = false ∧ isWs out = false ∧ text ≠ [] ∧
      (∀ n s, out = .commandName n s → text = '\\' :: n) := by
  unfold tokenAt at h
  split at h
  · cases h
  · split at h
    · rename_i hch
      subst hch
      obtain ⟨d, k, h1, h2, rfl, hd⟩ := paramToken_ok (by rw [hloc]; rfl) h
      refine ⟨['#', d], [], by rw [h1]; simp, ?_, by simp, ?_, rfl, rfl, by simp, ?_⟩
      · have := digit_size hd
        have : '#'.utf8Size = 1 := by decide
        simp; omega
      · have := digit_size hd
        have : '#'.utf8Size = 1 := by decide
        simp [outSpan]; omega
      · intro n s hh; cases hh
    · split at h
      · rename_i hch
        subst hch
        obtain ⟨name, b, h1, h2, -⟩ := readCommand_spec l
        rw [h2] at h
        simp only at h
        obtain ⟨w, b', h3, h4, -, h5, -⟩ := skipWhitespace_spec ⟨l.pos + blen name, b⟩
        simp only at h3 h5
        rw [h5] at h
        unfold parseEnvMarker at h
        have key : ∀ mk, (∀ e, isEoi (.token ⟨mk e, ⟨loc, l'.pos⟩⟩) = false ∧
            isWs (.token ⟨mk e, ⟨loc, l'.pos⟩⟩) = false) →
            envMarker ⟨l.pos + blen name + blen w, b'⟩ ⟨loc, l.pos + blen name⟩ mk = .ok (out, l') →
            ∃ text after, '\\' :: l.rest = text ++ after ++ l'.rest ∧
              l'.pos = loc + blen text + blen after ∧ (∀ c ∈ after, isAsciiWs c) ∧
              outSpan out = ⟨loc, loc + blen text⟩ ∧ isEoi out = false ∧ isWs out = false ∧
              text ≠ [] ∧ (∀ n s, out = .commandName n s → text = '\\' :: n) := by
          intro mk hmk h
          obtain ⟨a, e, h6, h7, h8⟩ := envMarker_ok h
          simp only at h6 h7
          refine ⟨'\\' :: (name ++ (w ++ a)), [], ?_, ?_, by simp, ?_, ?_, ?_, by simp, ?_⟩
          · rw [h1, h3, h6]; simp
          · rw [h7, hloc]; simp [blen_append]; omega
          · rw [h8]; simp only [outSpan]; rw [h7, hloc]; simp [blen_append]; omega
          · rw [h8]; exact (hmk e).1
          · rw [h8]; exact (hmk e).2
          · intro n s hh; rw [h8] at hh; cases hh
        split at h
        · exact key _ (fun _ => ⟨rfl, rfl⟩) h
        · split at h
          · exact key _ (fun _ => ⟨rfl, rfl⟩) h
          · simp only [Except.ok.injEq, Prod.mk.injEq] at h
            obtain ⟨rfl, rfl⟩ := h
            refine ⟨'\\' :: name, w, ?_, ?_, h4, ?_, rfl, rfl, by simp, ?_⟩
            · rw [h1, h3]; simp
            · rw [hloc]; simp; omega
            · rw [hloc]; simp [outSpan]; omega
            · intro n s hh; cases hh; rfl
      · simp only [Except.ok.injEq, Prod.mk.injEq] at h
        obtain ⟨rfl, rfl⟩ := h
        refine ⟨[ch], [], by simp, by simp [hloc], by simp, by simp [outSpan],
          (charToken_plain ch _).1, (charToken_plain ch _).2, by simp, ?_⟩
        intro n s hh; cases hh

theorem blank_append {a b : Str} (ha : ∀ c ∈ a, isAsciiWs c) (hb : Blank b) : Blank (a ++ b) := by
  induction a with
  | nil => exact hb
  | cons c cs ih =>
    exact .ws c _ (ha c (List.mem_cons_self ..)) (ih (fun x hx => ha x (List.mem_cons_of_mem _ hx)))

/-- What is skipped for a comment. -/
theorem skipComment_spec (l : Lexer) :
    ∃ a b, l.rest = a ++ b ∧ l.skipComment = ⟨l.pos + blen a, b⟩ ∧
      ∀ g, Blank g → (b = [] → g = []) → Blank ('%' :: (a ++ g)) := by
  obtain ⟨t, b, h1, h2, h3, h4⟩ := readWhile_spec (· != '\n') l.pos l.rest
  have ht : '\n' ∉ t := fun h => by simpa using h3 _ h
  unfold skipComment
  rw [h1]
  simp only
  cases b with
  | nil =>
    refine ⟨t, [], h2, rfl, ?_⟩
    intro g hg hb
    rw [hb rfl, List.append_nil]
    exact .lastComment t ht
  | cons c cs =>
    have hc : c = '\n' := by simpa using h4 c cs rfl
    subst hc
    obtain ⟨w, b', h5, h6, -, h7, -⟩ := skipWhitespace_spec ⟨l.pos + blen t + '\n'.utf8Size, cs⟩
    refine ⟨t ++ '\n' :: w, b', ?_, ?_, ?_⟩
    · simp only at h5; rw [h2, h5]; simp
    · rw [show (readChar ⟨l.pos + blen t, '\n' :: cs⟩).2 = ⟨l.pos + blen t + '\n'.utf8Size, cs⟩ from rfl,
        h7]
      simp [blen_append, Nat.add_assoc]
    · intro g hg _
      have := Blank.comment t (w ++ g) ht (blank_append h6 hg)
      simpa using this

theorem nextTokenFuel_ok {fuel : Nat} {l : Lexer} {out l'} (hf : l.rest.length < fuel)
    (h : nextTokenFuel fuel l = .ok (out, l')) : ∃ gap text after, ReadOk l out l' gap text after := by
  induction fuel generalizing l with
  | zero => omega
  | succ fuel ih =>
    unfold nextTokenFuel at h
    obtain ⟨w, b, h1, h2, h3, h4, h5⟩ := skipWhitespace_spec l
    rcases h5 with ⟨rfl, h5⟩ | ⟨c, cs, rfl, h5⟩
    · have hsk : l.skipWhitespace = (none, l) := by
        rw [Prod.ext_iff]
        refine ⟨h5, ?_⟩
        rw [h4]
        cases l; simp at h1; simp [h1]
      rw [hsk] at h
      simp only at h
      simp only [List.nil_append] at h1
      cases hr : l.rest with
      | nil =>
        rw [readChar, hr] at h
        simp only [Except.ok.injEq, Prod.mk.injEq] at h
        obtain ⟨rfl, rfl⟩ := h
        exact ⟨[], [], [], by simp [hr], by simp, .nil, by simp, by simp [outSpan, Span.zeroWidth],
          by simp [hr], by simp [isEoi], by simp, by simp [isWs]⟩
      | cons c cs =>
        rw [readChar, hr] at h
        simp only at h
        split at h
        · rename_i hc
          subst hc
          obtain ⟨a, b2, ha, hb, hblank⟩ := skipComment_spec ⟨l.pos + '%'.utf8Size, cs⟩
          simp only at ha
          rw [hb] at h
          have hlen : b2.length < fuel := by
            rw [hr] at hf
            rw [ha] at hf
            simp at hf; omega
          obtain ⟨gap, text, after, hk⟩ := ih (l := ⟨_, b2⟩) hlen h
          have hrest := hk.rest
          have hpos := hk.pos
          have hspan := hk.span
          simp only at hrest hpos hspan
          refine ⟨'%' :: (a ++ gap), text, after, ?_, ?_, ?_, hk.afterWs, ?_, hk.eoi, hk.progress,
            hk.name, hk.afterNoWs⟩
          · rw [hr, ha, hrest]; simp
          · rw [hpos]; simp [blen_append]; omega
          · refine hblank gap hk.gapBlank ?_
            intro hb0
            rw [hb0] at hrest
            have := congrArg List.length hrest
            simp at this
            exact List.length_eq_zero_iff.1 (by omega)
          · rw [hspan]; simp [blen_append]; omega
        · obtain ⟨text, after, h6, h7, h8, h9, h10, h11, h12, h13⟩ := tokenAt_ok rfl h
          simp only at h6
          refine ⟨[], text, after, ?_, ?_, .nil, h8, ?_, ?_, fun _ => h12, h13, ?_⟩
          · rw [hr]; simpa using h6
          · simpa using h7
          · simpa using h9
          · rw [h10]; simp
          · rw [h11]; simp
    · have hsk : l.skipWhitespace = (some ⟨l.pos, l.pos + c.utf8Size⟩, ⟨l.pos + blen (c :: cs), b⟩) :=
        Prod.ext h5 h4
      rw [hsk] at h
      simp only [Except.ok.injEq, Prod.mk.injEq] at h
      obtain ⟨rfl, rfl⟩ := h
      refine ⟨[], [c], cs, by simpa using h1, by simp [Nat.add_assoc], .nil, ?_, by simp [outSpan],
        by simp [isEoi], by simp, by simp, fun _ => h3⟩
      exact fun x hx => h2 x (List.mem_cons_of_mem _ hx)

/-- A successful read. -/
theorem nextToken_ok {l : Lexer} {out l'} (h : l.nextToken = .ok (out, l')) :
    ∃ gap text after, ReadOk l out l' gap text after :=
  nextTokenFuel_ok (Nat.lt_succ_self _) h

/-- An error lies inside the rest of the source. -/
def ErrInside (pos : Nat) (rest : Str) (e : LatexError) : Prop :=
  ∃ a t b, rest = a ++ t ++ b ∧ e.start = pos + blen a ∧ e.stop = pos + blen a + blen t

theorem ErrInside.shift {pos : Nat} {a rest : Str} {e} (h : ErrInside (pos + blen a) rest e) :
    ErrInside pos (a ++ rest) e := by
  obtain ⟨x, t, b, h1, h2, h3⟩ := h
  refine ⟨a ++ x, t, b, by rw [h1]; simp, ?_, ?_⟩
  · rw [h2, blen_append]; omega
  · rw [h3, blen_append]; omega

theorem envMarker_err {l : Lexer} {span mk e} (h : l.envMarker span mk = .error e) :
    ErrInside l.pos l.rest e := by
  unfold envMarker at h
  obtain ⟨w, b, h1, -, -, h2, -⟩ := skipWhitespace_spec l
  simp only [h2] at h
  rw [h1]
  apply ErrInside.shift
  split at h
  · rename_i s hs
    obtain ⟨a, t, c, h3, h4⟩ := readEnvName_err hs
    cases h
    exact ⟨a, t, c, h3, by rw [h4]; rfl, by rw [h4]; rfl⟩
  · rename_i c s hs
    obtain ⟨a, t, c, h3, h4⟩ := readEnvName_err hs
    cases h
    exact ⟨a, t, c, h3, by rw [h4]; rfl, by rw [h4]; rfl⟩
  · rename_i name stop l2 hname
    obtain ⟨a, ha1, ha2, ha3, ha4⟩ := readEnvName_ok hname
    split at h
    · cases h
      exact ⟨[], a, l2.rest, by simpa using ha1, by simp, by simpa using ha3⟩
    · cases h

theorem tokenAt_err {l : Lexer} {loc ch e} (hloc : l.pos = loc + ch.utf8Size)
    (h : l.tokenAt loc ch = .error e) : ErrInside loc (ch :: l.rest) e := by
  unfold tokenAt at h
  split at h
  · rename_i hch
    cases h
    subst hch
    exact ⟨[], ['\x00'], l.rest, rfl, by simp, by simp; decide⟩
  · split at h
    · rename_i hch
      subst hch
      have h1 : '#'.utf8Size = 1 := by decide
      unfold paramToken at h
      cases hr : l.rest with
      | nil =>
        rw [hr] at h
        cases h
        exact ⟨['#'], [], [], rfl, by simp [hloc], by simp [hloc]⟩
      | cons d ds =>
        rw [hr] at h
        simp only at h
        split at h
        · rename_i hd
          split at h
          · cases h
          · cases h
            have := digit_size hd
            exact ⟨['#'], [d], ds, rfl, by simp [h1], by simp [h1, this]⟩
        · cases h
          exact ⟨['#'], [d], ds, rfl, by simp [hloc], by simp [hloc]⟩
    · split at h
      · rename_i hch
        subst hch
        obtain ⟨name, b, h1, h2, -⟩ := readCommand_spec l
        rw [h2] at h
        simp only at h
        obtain ⟨w, b', h3, h4, -, h5, -⟩ := skipWhitespace_spec ⟨l.pos + blen name, b⟩
        simp only at h3 h5
        rw [h5] at h
        unfold parseEnvMarker at h
        have key : ∀ mk, envMarker ⟨l.pos + blen name + blen w, b'⟩ ⟨loc, l.pos + blen name⟩ mk =
            .error e → ErrInside loc ('\\' :: l.rest) e := by
          intro mk h
          have := envMarker_err h
          simp only at this
          have := this.shift
          rw [← h3] at this
          have := this.shift
          rw [← h1, hloc] at this
          have hh : loc + '\\'.utf8Size = loc + blen ['\\'] := by simp
          rw [hh] at this
          exact this.shift
        split at h
        · exact key _ h
        · split at h
          · exact key _ h
          · cases h
      · cases h

theorem nextTokenFuel_err {fuel : Nat} {l : Lexer} {e} (h : nextTokenFuel fuel l = .error e) :
    ErrInside l.pos l.rest e := by
  induction fuel generalizing l with
  | zero => cases h
  | succ fuel ih =>
    unfold nextTokenFuel at h
    obtain ⟨w, b, h1, h2, h3, h4, h5⟩ := skipWhitespace_spec l
    rcases h5 with ⟨rfl, h5⟩ | ⟨c, cs, rfl, h5⟩
    · have hsk : l.skipWhitespace = (none, l) := by
        rw [Prod.ext_iff]
        refine ⟨h5, ?_⟩
        rw [h4]
        cases l; simp at h1; simp [h1]
      rw [hsk] at h
      simp only at h
      cases hr : l.rest with
      | nil =>
        rw [readChar, hr] at h
        cases h
      | cons c cs =>
        rw [readChar, hr] at h
        simp only at h
        split at h
        · rename_i hc
          subst hc
          obtain ⟨a, b2, ha, hb, -⟩ := skipComment_spec ⟨l.pos + '%'.utf8Size, cs⟩
          simp only at ha
          rw [hb] at h
          have := (ih h).shift
          simp only at this
          rw [← ha] at this
          have hh : l.pos + '%'.utf8Size = l.pos + blen ['%'] := by simp
          rw [hh] at this
          exact this.shift
        · exact tokenAt_err rfl h
    · have hsk : l.skipWhitespace = (some ⟨l.pos, l.pos + c.utf8Size⟩, ⟨l.pos + blen (c :: cs), b⟩) :=
        Prod.ext h5 h4
      rw [hsk] at h
      cases h

end Lexer'
end Verif

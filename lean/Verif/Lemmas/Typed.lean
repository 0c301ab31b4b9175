import Verif.Lemmas.TypedTables
import Verif.Lemmas.Lexer
import Verif.Lemmas.SuperChar
import Verif.Lemmas.Source
/-! How characters and commands which stand for symbols of unicode-math are read. -/
namespace Verif
open Model Spec Lexer'

theorem typed_other {c : Char} (hk : ¬ c.toNat < 128) (h : isSymbol c = true) (ho : unicodeOperators.lookup c = none) :
    unicodeAtom c.toNat = .ord := by
  have hn : ∀ rs : List CharRange, (∀ n ∈ rangeChars rs, n ∈ rangeChars relChars ++ rangeChars binChars ++
      rangeChars openingChars ++ rangeChars closingChars ++ rangeChars opChars ++ rangeChars punctChars) →
      within c.toNat rs = false := by
    intro rs hrs
    cases hw : within c.toNat rs with
    | false => rfl
    | true =>
      exfalso
      have := List.all_eq_true.1 listed_known _ (hrs _ (within_mem hw))
      simp only [Bool.or_eq_true] at this
      rcases this with (h1 | h1) | h1
      · exact hk (Nat.blt_eq.mp h1)
      · unfold isSymbol at h
        rw [h1] at h
        simp at h
      · obtain ⟨n, hn, e⟩ := List.any_eq_true.1 h1
        obtain ⟨p, hp, e'⟩ := List.mem_map.1 hn
        have e2 : c = p.1 := Char.toNat_inj.1 (by rw [Nat.eq_of_beq_eq_true e, e'])
        have : ∀ (l : List (Char × Token)), p ∈ l → l.lookup c ≠ none := by
          intro l hl
          induction l with
          | nil => cases hl
          | cons q l ih =>
            rw [List.lookup_cons]
            split
            · simp
            · rename_i hne
              rcases List.mem_cons.1 hl with rfl | hl
              · rw [e2] at hne; simp at hne
              · exact ih hl
        exact this _ hp ho
  unfold unicodeAtom
  rw [hn relChars (fun n hn => by simp only [List.mem_append, hn, true_or, or_true]), hn binChars (fun n hn => by simp only [List.mem_append, hn, true_or, or_true]),
    hn openingChars (fun n hn => by simp only [List.mem_append, hn, true_or, or_true]), hn closingChars (fun n hn => by simp only [List.mem_append, hn, true_or, or_true]),
    hn opChars (fun n hn => by simp only [List.mem_append, hn, true_or, or_true]), hn punctChars (fun n hn => by simp only [List.mem_append, hn, true_or, or_true])]
  rfl

theorem charToken_other {c : Char} (hk : ¬ c.toNat < 128) : Lexer.charToken c =
    match getOperatorFromUnicode c with
    | some tok => tok
    | none => Lexer.letterTok c := by
  have hd : isAsciiDigit c = false := by
    cases h : isAsciiDigit c with
    | false => rfl
    | true =>
      exfalso
      simp only [isAsciiDigit, Bool.and_eq_true, decide_eq_true_eq] at h
      have h2 : c.val.toNat ≤ '9'.val.toNat := h.2
      have : '9'.val.toNat = 57 := rfl
      have : c.toNat = c.val.toNat := rfl
      omega
  have ha : isAsciiAlpha c = false := by
    cases h : isAsciiAlpha c with
    | false => rfl
    | true =>
      exfalso
      simp only [isAsciiAlpha, Bool.or_eq_true, Bool.and_eq_true, decide_eq_true_eq] at h
      have : 'z'.val.toNat = 122 := rfl
      have : 'Z'.val.toNat = 90 := rfl
      have : c.toNat = c.val.toNat := rfl
      rcases h with h | h
      · have h2 : c.val.toNat ≤ 'z'.val.toNat := h.2
        omega
      · have h2 : c.val.toNat ≤ 'Z'.val.toNat := h.2
        omega
  unfold Lexer.charToken
  split <;> first
    | (exfalso; exact hk (by decide))
    | rw [hd, ha]; rfl

/-- Every character which is a symbol is read as the symbol of unicode-math. -/
theorem typed_stands {c : Char} (h : isSymbol c = true) : stands (Lexer.charToken c) (typedSymbol c) = true := by
  by_cases hk : c.toNat < 128
  · have := List.all_eq_true.1 ascii_stands _ (List.mem_range.2 hk)
    rw [Char.ofNat_toNat, h] at this
    exact this
  · rw [charToken_other hk]
    unfold getOperatorFromUnicode
    cases ho : unicodeOperators.lookup c with
    | some tok =>
      have : (c, tok) ∈ unicodeOperators := by
        revert ho
        generalize unicodeOperators = l
        intro ho
        induction l with
        | nil => cases ho
        | cons q l ih =>
          rw [List.lookup_cons] at ho
          split at ho
          · rename_i he
            cases ho
            have : c = q.1 := by simpa using he
            rw [this]
            exact List.mem_cons_self
          · exact List.mem_cons_of_mem _ (ih ho)
      have := List.all_eq_true.1 table_stands _ this
      dsimp only at this
      rw [h] at this
      exact this
    | none =>
      have ha := typed_other hk h ho
      have hs : shownFor c = c := by
        unfold shownFor
        have : ∀ d : Char, d.toNat < 128 → c ≠ d := fun d hd e => hk (e ▸ hd)
        rw [if_neg (this _ (by decide)), if_neg (this _ (by decide)), if_neg (this _ (by decide)),
          if_neg (this _ (by decide))]
      show stands (Lexer.letterTok c) (typedSymbol c) = true
      have hg : glyph (Lexer.letterTok c) = some c := by
        show (SuperChar.fromChar c).tryAsChar = some c
        rw [fromChar_eq, symWord_tryAsChar]
        rfl
      unfold stands typedSymbol
      rw [hg, hs, ha]
      show (true && decide (c = c)) = true
      simp

/-! ### Commands -/

theorem rows_stand {r : SymbolRow} (h : r ∈ symbolRows) : rowStands r = true := by
  unfold symbolRows at h
  simp only [List.mem_append] at h
  rcases h with ((h | h) | h) | h
  · exact List.all_eq_true.1 rows_stand0 _ h
  · exact List.all_eq_true.1 rows_stand1 _ h
  · exact List.all_eq_true.1 rows_stand2 _ h
  · exact List.all_eq_true.1 rows_stand3 _ h

/-- A command of the table which is not an odd one, under any settings -/
theorem row_builtin {r : SymbolRow} (h : r ∈ symbolRows) (ho : r.name ∉ oddNames) (u : Bool) (s : UnicodeSubstitution) :
    ∃ t, resolveBuiltinCmd u s r.name = some t ∧ stands t r.symbol = true ∧ ∀ d, t ≠ .digit d := by
  have hr := rows_stand h
  unfold rowStands at hr
  simp only [Bool.and_eq_true, Bool.or_eq_true, decide_eq_true_eq, Option.isNone_iff_eq_none] at hr
  obtain ⟨-, hr | ⟨⟨h1, h2⟩, h3⟩⟩ := hr
  · exact absurd hr ho
  · cases hc : commands.lookup r.name with
    | none => rw [hc] at h3; cases h3
    | some t =>
      rw [hc] at h3
      dsimp only at h3
      rw [Bool.and_eq_true] at h3
      refine ⟨t, ?_, h3.1, fun d e => by rw [e] at h3; cases h3.2⟩
      unfold resolveBuiltinCmd
      rw [h1, h2, hc]
      cases u <;> cases s <;> rfl

/-! ### Reading -/

theorem takeDrop (p : Char → Bool) (s : Str) : (∀ c ∈ s.takeWhile p, p c = true) ∧
    (∀ c cs, s.dropWhile p = c :: cs → p c = false) := by
  induction s with
  | nil => exact ⟨nofun, nofun⟩
  | cons d ds ih =>
    rw [List.takeWhile_cons, List.dropWhile_cons]
    cases hd : p d with
    | true =>
      simp only [if_true]
      refine ⟨fun c hc => ?_, ih.2⟩
      rcases List.mem_cons.1 hc with rfl | hc
      · exact hd
      · exact ih.1 c hc
    | false =>
      simp only [Bool.false_eq_true, if_false]
      refine ⟨nofun, fun c cs h => ?_⟩
      cases h
      exact hd

theorem skip_ws (pos : Nat) (s : Str) : ∃ q, (Lexer.skipWhitespace ⟨pos, s⟩).2 = ⟨q, s.dropWhile isAsciiWs⟩ := by
  have h := readWhile_eq isAsciiWs pos (s.takeWhile isAsciiWs) (s.dropWhile isAsciiWs) (takeDrop _ s).1 (takeDrop _ s).2
  rw [List.takeWhile_append_dropWhile] at h
  refine ⟨pos + blen (s.takeWhile isAsciiWs), ?_⟩
  unfold Lexer.skipWhitespace
  dsimp only
  rw [h]
  cases s.takeWhile isAsciiWs <;> rfl

theorem next_space {c : Char} {s : Str} (hc : isAsciiWs c = true) (pos : Nat) :
    ∃ sp q, (Lexer.mk pos (c :: s)).nextToken = .ok (.token ⟨.whitespace, sp⟩, ⟨q, (c :: s).dropWhile isAsciiWs⟩) := by
  have h := readWhile_eq isAsciiWs pos ((c :: s).takeWhile isAsciiWs) ((c :: s).dropWhile isAsciiWs) (takeDrop _ _).1
    (takeDrop _ _).2
  rw [List.takeWhile_append_dropWhile] at h
  refine ⟨⟨pos, pos + c.utf8Size⟩, pos + blen ((c :: s).takeWhile isAsciiWs), ?_⟩
  unfold Lexer.nextToken Lexer.nextTokenFuel Lexer.skipWhitespace
  dsimp only
  rw [h]
  simp only [List.takeWhile_cons, hc, if_true]

theorem skip_none {c : Char} {s : Str} (hc : isAsciiWs c = false) (pos : Nat) :
    Lexer.skipWhitespace ⟨pos, c :: s⟩ = (none, ⟨pos, c :: s⟩) := by
  unfold Lexer.skipWhitespace Lexer.readWhile
  dsimp only
  rw [hc]
  rfl

theorem next_char {c : Char} {s : Str} (hc : isSymbol c = true) (pos : Nat) :
    ∃ sp q, (Lexer.mk pos (c :: s)).nextToken = .ok (.token ⟨Lexer.charToken c, sp⟩, ⟨q, s⟩) := by
  unfold isSymbol at hc
  simp only [Bool.and_eq_true, Bool.not_eq_true'] at hc
  obtain ⟨⟨⟨h1, h2⟩, -⟩, -⟩ := hc
  have hn : ∀ d : Char, within d.toNat syntaxChars = true → c ≠ d := by
    intro d hd e
    rw [e, hd] at h2
    cases h2
  refine ⟨⟨pos, pos + c.utf8Size⟩, pos + c.utf8Size, ?_⟩
  unfold Lexer.nextToken Lexer.nextTokenFuel
  rw [skip_none h1]
  dsimp only [Lexer.readChar]
  rw [if_neg (hn _ (by decide))]
  unfold Lexer.tokenAt
  rw [if_neg (hn _ (by decide)), if_neg (hn _ (by decide)), if_neg (hn _ (by decide))]

theorem next_command {name s : Str} (hne : name ≠ []) (hn : ∀ c ∈ name, isAsciiAlpha c = true) (h1 : name ≠ c!"begin")
    (h2 : name ≠ c!"end") (hs : ∀ c ∈ s.head?, isAsciiAlpha c = false ∧ c ≠ '*') (pos : Nat) :
    ∃ sp q, (Lexer.mk pos ('\\' :: name ++ s)).nextToken = .ok (.commandName name sp, ⟨q, s.dropWhile isAsciiWs⟩) := by
  have hw : isAsciiWs '\\' = false := by decide
  have hr : ∀ p, Lexer.readWhile isAsciiAlpha p (name ++ s) = (name, ⟨p + blen name, s⟩) := fun p =>
    readWhile_eq isAsciiAlpha p name s hn fun c cs e => (hs c (by rw [e]; rfl)).1
  have hst : ∀ p, Lexer.readStar name ⟨p, s⟩ = (name, ⟨p, s⟩) := by
    intro p
    unfold Lexer.readStar
    cases s with
    | nil => rfl
    | cons c cs =>
      dsimp only
      rw [if_neg (hs c rfl).2]
  have hp : ∀ p, ¬ p + blen name = p := by
    intro p
    cases name with
    | nil => exact absurd rfl hne
    | cons c cs =>
      have := utf8Size_pos c
      rw [blen_cons]
      omega
  have hc : ∀ p, Lexer.readCommand ⟨p, name ++ s⟩ = (name, p + blen name, ⟨p + blen name, s⟩) := by
    intro p
    unfold Lexer.readCommand
    dsimp only
    rw [hr]
    dsimp only
    rw [hst]
    dsimp only
    rw [if_neg (hp p)]
  obtain ⟨q, hq⟩ := skip_ws (pos + '\\'.utf8Size + blen name) s
  refine ⟨⟨pos, pos + '\\'.utf8Size + blen name⟩, q, ?_⟩
  unfold Lexer.nextToken Lexer.nextTokenFuel
  rw [List.cons_append, skip_none hw]
  dsimp only [Lexer.readChar]
  rw [if_neg (by decide)]
  unfold Lexer.tokenAt
  rw [if_neg (by decide), if_neg (by decide), if_pos rfl]
  rw [hc]
  dsimp only
  rw [hq]
  unfold Lexer.parseEnvMarker
  rw [if_neg h1, if_neg h2]

theorem writes_skip {own : Str → Prop} {s : Str} {xs : List Symbol} (h : Writes own s xs) :
    Writes own (s.dropWhile isAsciiWs) xs := by
  induction h with
  | nil => exact .nil
  | space hc _ ih =>
    rw [List.dropWhile_cons, hc]
    exact ih
  | @char c s xs hc hd h =>
    rw [List.dropWhile_cons]
    have : isAsciiWs c = false := by
      have := hc
      unfold isSymbol at this
      simp only [Bool.and_eq_true, Bool.not_eq_true'] at this
      exact this.1.1.1
    rw [this]
    exact .char hc hd h
  | command h1 h2 h3 h4 h =>
    rw [List.cons_append, List.dropWhile_cons]
    exact .command h1 h2 h3 h4 h

/-- Tokens which stand for symbols -/
inductive Stand : List Token → List Symbol → Prop
  | nil : Stand [] []
  | cons {t x ts xs} : stands t x = true → (∀ d, t = .digit d → isAsciiDigit d = true) → (∀ d, t = .digit d → ∀ t' ∈ ts.head?, continuesNumber t' = false) →
    Stand ts xs → Stand (t :: ts) (x :: xs)

theorem digit_shown {d : Char} {x : Symbol} (h : stands (.digit d) x = true) : x.char = d := by
  have := stands_glyph h
  cases this
  rfl

theorem dot_shown {t : Token} {x : Symbol} (h : stands t x = true) (hd : continuesNumber t = true)
    (ht : ∀ d, t = .digit d → isAsciiDigit d = true) : continuesDigits x = true := by
  have hg := stands_glyph h
  unfold continuesNumber at hd
  unfold continuesDigits
  cases t
  case digit d =>
    have : x.char = d := digit_shown h
    rw [this, ht d rfl]
    rfl
  case letter c m =>
    cases m
    case mathOrText =>
      have : c = SuperChar.fromChar '.' := of_decide_eq_true hd
      subst this
      have : glyph (.letter (SuperChar.fromChar '.') .mathOrText) = some '.' := by rfl
      rw [this] at hg
      rw [← Option.some.inj hg]
      decide
    all_goals cases hd
  all_goals cases hd

theorem charToken_digit {c d : Char} (h : Lexer.charToken c = .digit d) : isAsciiDigit c = true ∧ d = c := by
  unfold Lexer.charToken at h
  split at h <;> first
    | cases h
    | skip
  split at h
  · cases h
    rename_i hd
    exact ⟨hd, rfl⟩
  · split at h
    · cases h
    · unfold getOperatorFromUnicode at h
      split at h
      · rename_i heq
        simp only [Option.map_eq_some_iff] at heq
        obtain ⟨t, -, rfl⟩ := heq
        cases h
      · cases h

theorem stand_next {ts : List Token} {xs : List Symbol} (h : Stand ts xs) (hx : ∀ x ∈ xs.head?, continuesDigits x = false) :
    ∀ t' ∈ ts.head?, continuesNumber t' = false := by
  cases h with
  | nil => nofun
  | @cons t x ts xs h1 h2 h3 h =>
    intro t' ht
    cases ht
    cases hc : continuesNumber t with
    | false => rfl
    | true =>
      have := dot_shown h1 hc h2
      rw [hx _ rfl] at this
      cases this

/-- Sources which consist of symbols are read as tokens which stand for these. -/
theorem writes_reads {cfg : ParserConfig} {g : GlobalState} (k : Nat) : ∀ (s : Str) (xs : List Symbol), s.length ≤ k →
    Writes (definedName cfg g) s xs → ∀ (pos n : Nat), s.length < n → ∃ ts, Stand ts xs ∧
      (readTokens n ⟨pos, s⟩).2 = none ∧
      Reads ((readTokens n ⟨pos, s⟩).1.map (meaningOf cfg g)) ((ts.map fun t => (⟨t, false⟩ : Tk)) ++ [⟨.eoi, false⟩]) := by
  induction k with
  | zero =>
    intro s xs hk h pos n hn
    cases s with
    | cons c s => exact absurd hk (by simp)
    | nil =>
      cases h
      cases n with
      | zero => exact absurd hn (by simp)
      | succ n => exact ⟨[], .nil, rfl, .tok .nil⟩
  | succ k ih =>
    intro s xs hk h pos n hn
    cases n with
    | zero => exact absurd hn (by omega)
    | succ n =>
    cases h with
    | nil => exact ⟨[], .nil, rfl, .tok .nil⟩
    | @space c s xs hc h =>
      obtain ⟨sp, q, hx⟩ := next_space (s := s) hc pos
      have hlen : ((c :: s).dropWhile isAsciiWs).length ≤ s.length := by
        rw [List.dropWhile_cons, hc]
        exact (List.dropWhile_suffix _).length_le
      simp only [List.length_cons] at hk hn
      obtain ⟨ts, h1, h2, h3⟩ := ih _ xs (by omega) (writes_skip (.space hc h)) q n (by omega)
      refine ⟨ts, h1, ?_, ?_⟩
      · unfold readTokens
        rw [hx]
        exact h2
      · unfold readTokens
        rw [hx]
        dsimp only
        show Reads (_ :: List.map _ (readTokens n _).1) _
        cases ts with
        | nil => exact .ws rfl h3
        | cons t ts => exact .ws rfl h3
    | @char c s xs hc hd h =>
      obtain ⟨sp, q, hx⟩ := next_char (s := s) hc pos
      simp only [List.length_cons] at hk hn
      obtain ⟨ts, h1, h2, h3⟩ := ih s xs (by omega) h q n (by omega)
      refine ⟨Lexer.charToken c :: ts, .cons (typed_stands hc) (fun d e => ?_) (fun d e => stand_next h1 (hd ?_)) h1, ?_, ?_⟩
      · obtain ⟨e1, e2⟩ := charToken_digit e
        rw [e2]
        exact e1
      · exact (charToken_digit e).1
      · unfold readTokens
        rw [hx]
        dsimp only
        rw [(charToken_plain c sp).1]
        exact h2
      · unfold readTokens
        rw [hx]
        dsimp only
        rw [(charToken_plain c sp).1]
        exact .tok h3
    | @command row s xs hr ho hm hs h =>
      have hrow := rows_stand hr
      unfold rowStands at hrow
      simp only [Bool.and_eq_true, decide_eq_true_eq, Bool.not_eq_true', List.all_eq_true] at hrow
      obtain ⟨⟨⟨⟨r1, r2⟩, r3⟩, r4⟩, -⟩ := hrow
      obtain ⟨t, ht, hst, hnd⟩ := row_builtin hr ho cfg.allowUnreliableRendering cfg.unicodeSubstitution
      obtain ⟨sp, q, hx⟩ := next_command (name := row.name) (s := s) (fun e => by rw [e] at r1; cases r1) r2 r3 r4 hs pos
      have hlen : (s.dropWhile isAsciiWs).length ≤ s.length := (List.dropWhile_suffix _).length_le
      simp only [List.length_append, List.length_cons] at hk hn
      obtain ⟨ts, h1, h2, h3⟩ := ih _ xs (by omega) (writes_skip h) q n (by omega)
      have hmean : meaningOf cfg g (.commandName row.name sp) = t := by
        have n1 : g.customCmds.get row.name .document = none := by
          cases hg : g.customCmds.get row.name .document with
          | none => rfl
          | some _ => exact absurd (Or.inl (by rw [hg]; rfl)) hm
        have n2 : cfg.customCmds.get row.name .config = none := by
          cases hg : cfg.customCmds.get row.name .config with
          | none => rfl
          | some _ => exact absurd (Or.inr (by rw [hg]; rfl)) hm
        unfold meaningOf resolveLexed CmdStores.resolveCommand
        dsimp only
        rw [n1, n2]
        show (ParserConfig.builtin cfg row.name).getD _ = t
        unfold ParserConfig.builtin
        rw [ht]
        rfl
      refine ⟨t :: ts, .cons hst (fun d e => absurd e (hnd d)) (fun d e => absurd e (hnd d)) h1, ?_, ?_⟩
      · unfold readTokens
        rw [hx]
        exact h2
      · unfold readTokens
        rw [hx]
        dsimp only
        show Reads (meaningOf cfg g (.commandName row.name sp) :: List.map _ (readTokens n _).1) _
        rw [hmean]
        exact .tok h3

theorem writes_spells {cfg : ParserConfig} {g : GlobalState} {s : Str} {xs : List Symbol} (h : Writes (definedName cfg g) s xs) :
    ∃ ts, Stand ts xs ∧ Spells cfg g s (ts.map fun t => ⟨t, false⟩) := by
  obtain ⟨ts, h1, h2, h3⟩ := writes_reads s.length s xs (Nat.le_refl _) h 0 (s.length + 1) (by omega)
  exact ⟨ts, h1, h2, h3⟩

end Verif

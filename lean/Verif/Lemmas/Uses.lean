import Verif.Lemmas.CallSpec
import Verif.Spec.Uses
/-! The names which the tokeniser finds are mentioned in the source. -/
namespace Verif
open Model Spec Lexer'

theorem mentions_append {name a b : Str} (h : mentions name b = true) : mentions name (a ++ b) = true := by
  induction a with
  | nil => exact h
  | cons c cs ih => simp [mentions, ih]

/-- What comes after a name of letters -/
theorem readCommand_end (l : Lexer) {name stop l'} (h : l.readCommand = (name, stop, l')) (hn : name ≠ [])
    (ha : ∀ c ∈ name, isAsciiAlpha c = true) : namedAt name l.rest = true := by
  have key : ∀ b : Str, l.rest = name ++ b → (∀ c cs, b = c :: cs → isAsciiAlpha c = false ∧ c ≠ '*') →
      namedAt name l.rest = true := by
    intro b hb hc
    rw [hb]
    unfold namedAt
    rw [List.drop_left, Bool.and_eq_true]
    refine ⟨List.isPrefixOf_iff_prefix.2 (List.prefix_append ..), ?_⟩
    cases b with
    | nil => rfl
    | cons c cs => simp [hc c cs rfl]
  obtain ⟨a, b, h1, h2, h3, h4⟩ := readWhile_spec isAsciiAlpha l.pos l.rest
  unfold Lexer.readCommand at h
  rw [h1] at h
  simp only at h
  cases b with
  | nil =>
    rw [show Lexer.readStar a ⟨l.pos + blen a, []⟩ = (a, ⟨l.pos + blen a, []⟩) from rfl] at h
    simp only at h
    split at h
    · simp only [Lexer.readChar, Prod.mk.injEq] at h
      exact absurd h.1.symm hn
    · simp only [Prod.mk.injEq] at h
      obtain ⟨rfl, -, -⟩ := h
      exact key [] h2 nofun
  | cons d ds =>
    by_cases hd : d = '*'
    · subst hd
      rw [show Lexer.readStar a ⟨l.pos + blen a, '*' :: ds⟩ =
        (a ++ c!"*", ⟨l.pos + blen a + '*'.utf8Size, ds⟩) from rfl] at h
      have := star_size
      simp only at h
      rw [if_neg (by omega)] at h
      simp only [Prod.mk.injEq] at h
      obtain ⟨rfl, -, -⟩ := h
      exact absurd (ha '*' (by simp)) (by decide)
    · rw [show Lexer.readStar a ⟨l.pos + blen a, d :: ds⟩ = (a, ⟨l.pos + blen a, d :: ds⟩) from if_neg hd] at h
      simp only at h
      split at h
      · simp only [Lexer.readChar, Prod.mk.injEq] at h
        obtain ⟨rfl, -, -⟩ := h
        have := ha d (by simp)
        rw [h4 d ds rfl] at this
        cases this
      · simp only [Prod.mk.injEq] at h
        obtain ⟨rfl, -, -⟩ := h
        refine key (d :: ds) h2 ?_
        rintro c cs hc
        cases hc
        exact ⟨h4 d ds rfl, hd⟩

theorem envMarker_noName {l : Lexer} {span mk n s l'} : l.envMarker span mk ≠ .ok (.commandName n s, l') := by
  intro h
  obtain ⟨a, e, -, -, he⟩ := envMarker_ok h
  cases he

theorem tokenAt_mentions {l : Lexer} {loc ch n s l'} (h : l.tokenAt loc ch = .ok (.commandName n s, l')) (hn : n ≠ [])
    (ha : ∀ c ∈ n, isAsciiAlpha c = true) : mentions n (ch :: l.rest) = true := by
  unfold Lexer.tokenAt at h
  split at h
  · cases h
  · split at h
    · unfold Lexer.paramToken at h
      (repeat' split at h) <;> cases h
    · split at h
      · rename_i hc
        subst hc
        cases hr : l.readCommand with
        | mk cmd x =>
          obtain ⟨stop, l1⟩ := x
          rw [hr] at h
          simp only [Lexer.parseEnvMarker] at h
          split at h
          · exact absurd h envMarker_noName
          · split at h
            · exact absurd h envMarker_noName
            · cases h
              simp [mentions, readCommand_end l hr hn ha]
      · cases h

theorem nextTokenFuel_mentions {fuel : Nat} {l : Lexer} {n s l'}
    (h : Lexer.nextTokenFuel fuel l = .ok (.commandName n s, l')) (hn : n ≠ [])
    (ha : ∀ c ∈ n, isAsciiAlpha c = true) : mentions n l.rest = true := by
  induction fuel generalizing l with
  | zero => cases h
  | succ fuel ih =>
    unfold Lexer.nextTokenFuel at h
    obtain ⟨w, b, h1, h2, h3, h4, h5⟩ := skipWhitespace_spec l
    rcases h5 with ⟨rfl, h5⟩ | ⟨c, cs, rfl, h5⟩
    · have hsk : l.skipWhitespace = (none, l) := by
        rw [Prod.ext_iff]
        refine ⟨h5, ?_⟩
        rw [h4]
        cases l; simp at h1; simp [h1]
      rw [hsk] at h
      simp only at h
      cases hr : l.rest with
      | nil => rw [Lexer.readChar, hr] at h; cases h
      | cons c cs =>
        rw [Lexer.readChar, hr] at h
        simp only at h
        split at h
        · obtain ⟨a, b2, hab, hb, -⟩ := skipComment_spec ⟨l.pos + c.utf8Size, cs⟩
          simp only at hab
          rw [hb] at h
          have := ih h
          rw [hab]
          exact mentions_append (a := c :: a) this
        · exact tokenAt_mentions h hn ha
    · rw [show l.skipWhitespace = (some ⟨l.pos, l.pos + c.utf8Size⟩, ⟨l.pos + blen (c :: cs), b⟩) from
        Prod.ext h5 h4] at h
      cases h

theorem nthLexed_mentions {i : Nat} {l : Lexer} {n s} (h : nthLexed i l = .ok (.commandName n s)) (hn : n ≠ [])
    (ha : ∀ c ∈ n, isAsciiAlpha c = true) : mentions n l.rest = true := by
  induction i generalizing l with
  | zero =>
    unfold nthLexed at h
    cases hr : l.nextToken with
    | error e => rw [hr] at h; cases h
    | ok x =>
      obtain ⟨o, l'⟩ := x
      rw [hr] at h
      cases h
      exact nextTokenFuel_mentions hr hn ha
  | succ i ih =>
    unfold nthLexed at h
    cases hr : l.nextToken with
    | error e => rw [hr] at h; cases h
    | ok x =>
      obtain ⟨o, l'⟩ := x
      rw [hr] at h
      obtain ⟨gap, text, after, hk⟩ := nextToken_ok hr
      rw [hk.rest]
      exact mentions_append (ih h)

/-- A source in which none of these commands is mentioned -/
theorem avoids_not_lexed {names : List Str} {src : Str} (h : Avoids names src)
    (hnames : names.all (fun n => !n.isEmpty && n.all isAsciiAlpha) = true) {i n s}
    (hi : nthLexed i (Lexer.new src) = .ok (.commandName n s)) : names.contains n = false := by
  rw [Bool.eq_false_iff]
  intro hm
  have hm := List.contains_iff_mem.1 hm
  have hn := List.all_eq_true.1 hnames n hm
  simp only [Bool.and_eq_true, Bool.not_eq_true', List.isEmpty_eq_false_iff, List.all_eq_true] at hn
  have : mentions n src = true := nthLexed_mentions hi hn.1 hn.2
  rw [h n hm] at this
  cases this

end Verif

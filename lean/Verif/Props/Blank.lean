import Verif.Lemmas.LexerSim
/-! Properties C05 and C06: comments and whitespace. -/
namespace Verif
open Model Spec Lexer'

/-- A text in a comment either stays in it or has a first line break, which ends it. -/
theorem comment_split (t : Str) : ('\n' ∉ t ∧ placeAfter .comment t = .comment) ∨
    ∃ t1 t2, t = t1 ++ '\n' :: t2 ∧ '\n' ∉ t1 ∧ placeAfter .comment t = placeAfter .normal t2 := by
  induction t with
  | nil => exact Or.inl ⟨by simp, rfl⟩
  | cons c cs ih =>
    by_cases hc : c = '\n'
    · subst hc
      exact Or.inr ⟨[], cs, rfl, by simp, by simp [placeAfter]⟩
    · rcases ih with ⟨h1, h2⟩ | ⟨t1, t2, h1, h2, h3⟩
      · refine Or.inl ⟨by simp [h1, Ne.symm hc], by simp [placeAfter, hc, h2]⟩
      · refine Or.inr ⟨c :: t1, t2, by rw [h1]; rfl, by simp [h2, Ne.symm hc], by simp [placeAfter, hc, h3]⟩

/-- Putting the same text in front, if it does not end in a comment or with a backslash. -/
theorem same_prefix {x y : Str} (h : SameButBlank x y) (a : Str) (ha : placeAfter .normal a = .normal) :
    SameButBlank (a ++ x) (a ++ y) := by
  generalize hn : a.length = n
  induction n using Nat.strongRecOn generalizing a with
  | ind n ih =>
    subst hn
    cases a with
    | nil => exact h
    | cons c cs =>
      by_cases h1 : c = '\\'
      · subst h1
        cases cs with
        | nil => simp [placeAfter] at ha
        | cons d ds =>
          simp only [placeAfter, if_true] at ha
          exact .escaped d _ _ (ih _ (by simp; omega) ds ha rfl)
      · by_cases h2 : c = '%'
        · subst h2
          simp only [placeAfter, if_neg h1, if_true] at ha
          rcases comment_split cs with ⟨-, h4⟩ | ⟨t1, t2, rfl, h4, h5⟩
          · rw [h4] at ha; cases ha
          · rw [h5] at ha
            have := SameButBlank.comment t1 t1 _ _ h4 h4 (ih _ (by simp; omega) t2 ha rfl)
            simpa using this
        · simp only [placeAfter, if_neg h1, if_neg h2] at ha
          have := ih _ (by simp) cs ha rfl
          cases hw : isAsciiWs c with
          | false => exact .char c _ _ hw h2 h1 this
          | true => exact .ws [c] [c] _ _ (by simp) (by simp) (by simpa using hw) (by simpa using hw) this

/-- Every source is related to itself. -/
theorem same_refl (s : Str) : SameButBlank s s := by
  generalize hn : s.length = n
  induction n using Nat.strongRecOn generalizing s with
  | ind n ih =>
    subst hn
    cases s with
    | nil => exact .nil
    | cons c cs =>
      by_cases h1 : c = '\\'
      · subst h1
        cases cs with
        | nil => exact .lastBackslash
        | cons d ds => exact .escaped d _ _ (ih _ (by simp; omega) ds rfl)
      · by_cases h2 : c = '%'
        · subst h2
          rcases comment_split cs with ⟨h4, -⟩ | ⟨t1, t2, rfl, h4, -⟩
          · exact .lastComment _ _ h4 h4
          · exact SameButBlank.comment t1 t1 _ _ h4 h4 (ih _ (by simp; omega) t2 rfl)
        · have := ih _ (by simp) cs rfl
          cases hw : isAsciiWs c with
          | false => exact .char c _ _ hw h2 h1 this
          | true => exact .ws [c] [c] _ _ (by simp) (by simp) (by simpa using hw) (by simpa using hw) this

/-- Two sources which differ only in comments and in runs of whitespace have the same tokens, apart
from positions, and the same error (if any). -/
theorem C05_same_tokens {s s' : Str} (h : SameButBlank s s') : kindsOf s = kindsOf s' := by
  have := readTokens_sim (s.length + 1) (s'.length + 1) (Lexer.new s) (Lexer.new s') h
    (Nat.lt_succ_self _) (Nat.lt_succ_self _)
  exact Prod.ext this.1 this.2

/-- The text of a comment, wherever it is, can be replaced by any other text. -/
theorem C05_comment (before text text' after : Str) (hb : placeAfter .normal before = .normal)
    (h : '\n' ∉ text) (h' : '\n' ∉ text') :
    kindsOf (before ++ '%' :: (text ++ '\n' :: after)) =
      kindsOf (before ++ '%' :: (text' ++ '\n' :: after)) :=
  C05_same_tokens (same_prefix (.comment _ _ _ _ h h' (same_refl after)) before hb)

/-- The text of a comment which ends with the source. -/
theorem C05_last_comment (before text text' : Str) (hb : placeAfter .normal before = .normal)
    (h : '\n' ∉ text) (h' : '\n' ∉ text') :
    kindsOf (before ++ '%' :: text) = kindsOf (before ++ '%' :: text') :=
  C05_same_tokens (same_prefix (.lastComment _ _ h h') before hb)

/-- Non-vacuity, with an escaped percent sign and a comment before the comment. -/
example : placeAfter .normal c!"a\\% %b\\\n{\\begin{align}" = .normal := by decide

example : (kindsOf c!"a%x \\begin{\n b").1.length = 3 ∧ (kindsOf c!"a%x \\begin{\n b").2 = none ∧
    kindsOf c!"a%x \\begin{\n b" ≠ kindsOf c!"a\\%x \\begin{\n b" := by
  refine ⟨by decide +kernel, by decide +kernel, ?_⟩
  intro h
  have := congrArg (fun k => k.1.length) h
  exact absurd this (by decide +kernel)

/-- A non-empty run of whitespace, wherever it is, can be replaced by any other. -/
theorem C06_whitespace (before w w' after : Str) (hb : placeAfter .normal before = .normal)
    (hw : w ≠ []) (hw' : w' ≠ []) (h : ∀ c ∈ w, isAsciiWs c) (h' : ∀ c ∈ w', isAsciiWs c) :
    kindsOf (before ++ w ++ after) = kindsOf (before ++ w' ++ after) := by
  rw [List.append_assoc, List.append_assoc]
  exact C05_same_tokens (same_prefix (.ws _ _ _ _ hw hw' h h' (same_refl after)) before hb)

example : kindsOf c!"a\t\n \\b {\r\n}" = kindsOf c!"a \\b { }" :=
  (C06_whitespace c!"a" c!"\t\n " c!" " c!"\\b {\r\n}" (by decide) (by decide) (by decide) (by decide)
    (by decide)).trans
  (C06_whitespace c!"a \\b {" c!"\r\n" c!" " c!"}" (by decide) (by decide) (by decide) (by decide)
    (by decide))

/-- Reading from a place which does not begin with whitespace does not give a whitespace token. -/
theorem no_ws_first (n : Nat) (l : Lexer) (hl : ∀ c cs, l.rest = c :: cs → isAsciiWs c = false)
    {out : LexerOutput} {l' : Lexer} (h : Lexer.nextTokenFuel n l = .ok (out, l')) : isWs out = false := by
  induction n generalizing l with
  | zero => cases h; rfl
  | succ n ih =>
    unfold Lexer.nextTokenFuel at h
    obtain ⟨w, b, h1, h2, h3, h4, h5⟩ := skipWhitespace_spec l
    rcases h5 with ⟨rfl, h5⟩ | ⟨c, cs, rfl, h5⟩
    · have e : l.skipWhitespace = (none, ⟨l.pos, b⟩) := by
        rw [← h5, show (⟨l.pos, b⟩ : Lexer) = l.skipWhitespace.2 by rw [h4]; simp]
      rw [e] at h
      simp only at h
      cases b with
      | nil => cases h; rfl
      | cons c s =>
        simp only [Lexer.readChar] at h
        split at h
        · refine ih _ ?_ h
          unfold Lexer.skipComment
          obtain ⟨w, b, k1, k2, k3, k4, k5⟩ := skipWhitespace_spec
            (((Lexer.readWhile (· != '\n') (l.pos + c.utf8Size) s).2).readChar.2)
          rw [k4]; exact k3
        · unfold Lexer.tokenAt at h
          split at h
          · cases h
          · split at h
            · unfold Lexer.paramToken at h
              split at h
              · cases h
              · split at h
                · split at h <;> cases h
                  rfl
                · cases h
            · split at h
              · unfold Lexer.parseEnvMarker at h
                simp only at h
                split at h
                · obtain ⟨a, e, -, -, rfl⟩ := envMarker_ok h; rfl
                · split at h
                  · obtain ⟨a, e, -, -, rfl⟩ := envMarker_ok h; rfl
                  · cases h; rfl
              · cases h
                exact (charToken_plain c _).2
    · have := hl c _ (by rw [h1]; rfl)
      rw [h2 c (List.mem_cons_self ..)] at this; cases this

/-- No two neighbouring elements both satisfy the predicate. -/
def NoTwo {α : Type} (p : α → Bool) : List α → Prop
  | a :: b :: l => ¬(p a ∧ p b) ∧ NoTwo p (b :: l)
  | _ => True

theorem readTokens_noTwo (n : Nat) (l : Lexer) : NoTwo isWs (readTokens n l).1 ∧
    ((∀ c cs, l.rest = c :: cs → isAsciiWs c = false) → ∀ o os, (readTokens n l).1 = o :: os → isWs o = false) := by
  induction n generalizing l with
  | zero => exact ⟨trivial, by simp [readTokens]⟩
  | succ n ih =>
    unfold readTokens
    cases h : l.nextToken with
    | error e => exact ⟨trivial, by simp⟩
    | ok r =>
      obtain ⟨out, l'⟩ := r
      simp only
      have hfirst : (∀ c cs, l.rest = c :: cs → isAsciiWs c = false) → isWs out = false :=
        fun hl => no_ws_first _ l hl h
      cases he : isEoi out with
      | true => exact ⟨trivial, by intro hl o os ho; cases ho; exact hfirst hl⟩
      | false =>
        simp only [Bool.false_eq_true, if_false]
        obtain ⟨i1, i2⟩ := ih l'
        refine ⟨?_, by intro hl o os ho; cases ho; exact hfirst hl⟩
        obtain ⟨gap, text, after, hk⟩ := nextToken_ok h
        cases hr : (readTokens n l').1 with
        | nil => trivial
        | cons o os =>
          refine ⟨?_, by rw [← hr]; exact i1⟩
          rintro ⟨h1, h2⟩
          rw [i2 (hk.afterNoWs h1) o os hr] at h2
          cases h2

/-- The tokeniser never emits two whitespace tokens in a row. -/
theorem C06_never_two (source : Str) : NoTwo isWs (tokensOf source).1 :=
  (readTokens_noTwo _ _).1

example : (tokensOf c!"a % x\n % y\n  b").1.map isWs = [false, true, false, false] := by decide +kernel

end Verif

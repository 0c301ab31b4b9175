import Verif.Lemmas.Weights
/-! Which tokens the tokeniser and the tables of built-in commands can give. -/
namespace Verif
open Model Spec Lexer'

/-- Not a definition, not a command without meaning, not a macro, and the same in math and text mode -/
def inertB : Token → Bool
  | .unresolvedCommand _ | .newCommand _ | .letCmd | .defCmd _ | .globalPrefix | .mathOrTextMode ..
  | .customCmdRef .. => false
  | _ => true

/-- A token which stands for itself in the source -/
def rawB : Token → Bool
  | .mathOrTextMode .eoi _ => false
  | .mathOrTextMode t _ => inertB t
  | t => inertB t

/-- A token for a built-in command -/
def tameB : Token → Bool
  | .mathOrTextMode (.customCmdArgInput _) _ | .mathOrTextMode .eoi _ | .unresolvedCommand _ | .customCmdArgInput _
  | .eoi => false
  | .mathOrTextMode t _ => inertB t
  | _ => true

theorem unicode_raw : unicodeOperators.all (fun e => rawB (.mathOrTextMode e.2 'x')) = true := by decide +kernel

theorem commands_tame : (commands.all (fun e => tameB e.2) && unreliableCmds.all (fun e => tameB e.2) &&
    substitutedCmds.all (fun e => tameB e.2)) = true := by decide +kernel

theorem charToken_raw (c : Char) : rawB (Lexer.charToken c) = true := by
  unfold Lexer.charToken
  split <;> first
    | rfl
    | skip
  split
  · rfl
  · split
    · rfl
    · split
      · rename_i tok h
        unfold getOperatorFromUnicode at h
        rw [Option.map_eq_some_iff] at h
        obtain ⟨t, h, rfl⟩ := h
        have := lookup_allB (p := fun t => rawB (.mathOrTextMode t 'x')) unicode_raw h
        cases t <;> first | rfl | cases this
      · rfl

/-- What the tokeniser can find -/
def RawOut : LexerOutput → Prop
  | .token t => rawB t.tok = true
  | .commandName _ _ => True

theorem envMarker_raw {l : Lexer} {span mk out l'} (hmk : ∀ e, rawB (mk e) = true)
    (h : l.envMarker span mk = .ok (out, l')) : RawOut out := by
  obtain ⟨a, e, -, -, rfl⟩ := envMarker_ok h
  exact hmk e

theorem tokenAt_raw {l : Lexer} {loc ch out l'} (h : l.tokenAt loc ch = .ok (out, l')) : RawOut out := by
  unfold Lexer.tokenAt at h
  split at h
  · cases h
  · split at h
    · unfold Lexer.paramToken at h
      split at h
      · cases h
      · split at h
        · split at h
          · cases h; rfl
          · cases h
        · cases h
    · split at h
      · simp only [Lexer.parseEnvMarker] at h
        split at h
        · exact envMarker_raw (fun _ => rfl) h
        · split at h
          · exact envMarker_raw (fun _ => rfl) h
          · cases h; trivial
      · cases h
        exact charToken_raw ch

theorem nextTokenFuel_raw {fuel : Nat} {l : Lexer} {out l'} (h : Lexer.nextTokenFuel fuel l = .ok (out, l')) :
    RawOut out := by
  induction fuel generalizing l with
  | zero => cases h; rfl
  | succ fuel ih =>
    unfold Lexer.nextTokenFuel at h
    split at h
    · cases h; rfl
    · split at h
      · cases h; rfl
      · split at h
        · exact ih h
        · exact tokenAt_raw h

theorem readTokens_raw {n : Nat} {l : Lexer} : ∀ o ∈ (readTokens n l).1, RawOut o := by
  induction n generalizing l with
  | zero => intro o h; cases h
  | succ n ih =>
    intro o h
    unfold readTokens at h
    cases hx : l.nextToken with
    | error e => rw [hx] at h; cases h
    | ok p =>
      obtain ⟨out, l'⟩ := p
      rw [hx] at h
      dsimp only at h
      split at h
      · simp only [List.mem_cons, List.not_mem_nil, or_false] at h
        subst h
        exact nextTokenFuel_raw hx
      · simp only [List.mem_cons] at h
        rcases h with rfl | h
        · exact nextTokenFuel_raw hx
        · exact ih o h

theorem builtin_tame {cfg : ParserConfig} {name t} (h : cfg.builtin name = some t) : tameB t = true := by
  have hc := commands_tame
  simp only [Bool.and_eq_true] at hc
  unfold ParserConfig.builtin resolveBuiltinCmd at h
  rw [Option.or_eq_some_iff, Option.or_eq_some_iff, Option.or_eq_some_iff] at h
  rcases h with h | ⟨-, h | ⟨-, h | ⟨-, h⟩⟩⟩
  · split at h
    · exact lookup_allB hc.1.2 h
    · cases h
  · split at h
    · exact lookup_allB hc.2 h
    · cases h
  · exact lookup_allB hc.1.1 h
  · split at h
    · cases h; rfl
    · cases h

theorem resolve_tame {cfg : ParserConfig} {stores : CmdStores} {name t}
    (h : stores.resolveCommand cfg.builtin name = some t) : tameB t = true := by
  unfold CmdStores.resolveCommand at h
  split at h
  · rename_i tok hs
    cases h
    rw [Option.or_eq_some_iff, Option.or_eq_some_iff] at hs
    rcases hs with (hs | ⟨-, hs⟩) | ⟨-, hs⟩ <;>
      (obtain ⟨n, cl, a, b, rfl⟩ := customGet_ref hs; rfl)
  · exact builtin_tame h

end Verif

import Verif.Spec.Tex
import Verif.Lemmas.Typed
/-! How sources which consist of the lexemes of LaTeX are read. -/
namespace Verif
open Model Spec Lexer'

/-- The token of a command, if it depends on no settings -/
def fixedTok (name : Str) : Option Token :=
  if (unreliableCmds.lookup name).isNone && (substitutedCmds.lookup name).isNone then
    (commands.lookup name).or (if functions.contains name then some (.pseudoOperator name) else none)
  else none

theorem fixed_builtin {name : Str} {t : Token} (h : fixedTok name = some t) (u : Bool) (s : UnicodeSubstitution) :
    resolveBuiltinCmd u s name = some t := by
  unfold fixedTok at h
  split at h
  · rename_i hn
    simp only [Bool.and_eq_true, Option.isNone_iff_eq_none] at hn
    unfold resolveBuiltinCmd
    rw [hn.1, hn.2]
    cases u <;> cases s <;> exact h
  · cases h

/-- The token of a lexeme -/
def Spec.Lexeme.tok : Lexeme → Token
  | .char c | .next c => Lexer.charToken c
  | .command name => (fixedTok name).getD .relax
  | .opens name => .beginEnv ((Env.fromStr name).getD .matrix)
  | .closes name => .endEnv ((Env.fromStr name).getD .matrix)
  | .blank => .whitespace

/-- The lexeme has a meaning which does not depend on the settings. -/
def Spec.Lexeme.known (own : Str → Prop) : Lexeme → Prop
  | .char _ | .next _ | .blank => True
  | .command name => ¬ own name ∧ (fixedTok name).isSome = true
  | .opens name | .closes name => (Env.fromStr name).isSome = true

theorem next_typed {c : Char} {s : Str} (hw : isAsciiWs c = false) (hc : c ∉ ['\x00', '#', '%', '\\']) (pos : Nat) :
    ∃ sp q, (Lexer.mk pos (c :: s)).nextToken = .ok (.token ⟨Lexer.charToken c, sp⟩, ⟨q, s⟩) := by
  simp only [List.mem_cons, List.not_mem_nil, or_false, not_or] at hc
  obtain ⟨h1, h2, h3, h4⟩ := hc
  refine ⟨⟨pos, pos + c.utf8Size⟩, pos + c.utf8Size, ?_⟩
  unfold Lexer.nextToken Lexer.nextTokenFuel
  rw [skip_none hw]
  dsimp only [Lexer.readChar]
  rw [if_neg h3]
  unfold Lexer.tokenAt
  rw [if_neg h1, if_neg h2, if_neg h4]

theorem blanks_skip {w s : Str} (h : Gap w s) : (w ++ s).dropWhile isAsciiWs = s := by
  obtain ⟨h1, h2⟩ := h
  induction w with
  | nil =>
    cases s with
    | nil => rfl
    | cons c s => rw [List.nil_append, List.dropWhile_cons, h2 c rfl]; rfl
  | cons c w ih =>
    rw [List.cons_append, List.dropWhile_cons, h1 c List.mem_cons_self]
    exact ih fun d hd => h1 d (List.mem_cons_of_mem _ hd)

theorem next_starred {name s : Str} (hne : name ≠ []) (hn : ∀ c ∈ name, isAsciiAlpha c = true) (pos : Nat) :
    ∃ sp q, (Lexer.mk pos ('\\' :: name ++ '*' :: s)).nextToken =
      .ok (.commandName (name ++ ['*']) sp, ⟨q, s.dropWhile isAsciiWs⟩) := by
  have hw : isAsciiWs '\\' = false := by decide
  have hr : ∀ p, Lexer.readWhile isAsciiAlpha p (name ++ '*' :: s) = (name, ⟨p + blen name, '*' :: s⟩) := fun p =>
    readWhile_eq isAsciiAlpha p name _ hn fun c cs e => by cases e; decide
  have hst : ∀ p, Lexer.readStar name ⟨p, '*' :: s⟩ = (name ++ ['*'], ⟨p + '*'.utf8Size, s⟩) := by
    intro p
    unfold Lexer.readStar
    dsimp only
    rw [if_pos rfl]
    rfl
  have hp : ∀ p, ¬ p + blen name + '*'.utf8Size = p := by
    intro p
    have := utf8Size_pos '*'
    omega
  have hc : ∀ p, Lexer.readCommand ⟨p, name ++ '*' :: s⟩ =
      (name ++ ['*'], p + blen name + '*'.utf8Size, ⟨p + blen name + '*'.utf8Size, s⟩) := by
    intro p
    unfold Lexer.readCommand
    dsimp only
    rw [hr]
    dsimp only
    rw [hst]
    dsimp only
    rw [if_neg (hp p)]
  have hl : ∀ x : Str, (∀ c ∈ x, c ≠ '*') → name ++ ['*'] ≠ x := by
    intro x hx e
    exact hx '*' (by rw [← e]; simp) rfl
  obtain ⟨q, hq⟩ := skip_ws (pos + '\\'.utf8Size + blen name + '*'.utf8Size) s
  refine ⟨⟨pos, pos + '\\'.utf8Size + blen name + '*'.utf8Size⟩, q, ?_⟩
  unfold Lexer.nextToken Lexer.nextTokenFuel
  rw [List.cons_append, skip_none hw]
  dsimp only [Lexer.readChar]
  rw [if_neg (by decide)]
  unfold Lexer.tokenAt
  rw [if_neg (by decide), if_neg (by decide), if_pos rfl]
  rw [hc]
  dsimp only
  rw [hq]
  unfold Lexer.parseEnvMarker
  rw [if_neg (hl _ (by decide)), if_neg (hl _ (by decide))]

theorem next_sign {c : Char} {s : Str} (h1 : isAsciiAlpha c = false) (h2 : c ≠ '*') (pos : Nat) :
    ∃ sp q, (Lexer.mk pos ('\\' :: c :: s)).nextToken = .ok (.commandName [c] sp, ⟨q, s.dropWhile isAsciiWs⟩) := by
  have hw : isAsciiWs '\\' = false := by decide
  have hc : ∀ p, Lexer.readCommand ⟨p, c :: s⟩ = ([c], p + c.utf8Size, ⟨p + c.utf8Size, s⟩) := by
    intro p
    unfold Lexer.readCommand
    dsimp only
    unfold Lexer.readWhile
    rw [h1]
    simp only [Bool.false_eq_true, if_false]
    have hs : Lexer.readStar [] ⟨p, c :: s⟩ = ([], ⟨p, c :: s⟩) := by
      unfold Lexer.readStar
      dsimp only
      rw [if_neg h2]
    rw [hs]
    dsimp only
    rw [if_pos rfl]
    rfl
  obtain ⟨q, hq⟩ := skip_ws (pos + '\\'.utf8Size + c.utf8Size) s
  refine ⟨⟨pos, pos + '\\'.utf8Size + c.utf8Size⟩, q, ?_⟩
  unfold Lexer.nextToken Lexer.nextTokenFuel
  rw [skip_none hw]
  dsimp only [Lexer.readChar]
  rw [if_neg (by decide)]
  unfold Lexer.tokenAt
  rw [if_neg (by decide), if_neg (by decide), if_pos rfl]
  rw [hc]
  dsimp only
  rw [hq]
  unfold Lexer.parseEnvMarker
  have : ∀ d e f : Char, ∀ r : Str, [c] ≠ d :: e :: f :: r := by intro d e f r h; cases h
  rw [if_neg (this _ _ _ _), if_neg (this _ _ _ _)]

theorem next_env {mark name s : Str} {e : Env} {mk : Env → Token} (hn : ∀ c ∈ name, isAsciiAlpha c = true ∨ c = '*')
    (he : Env.fromStr name = some e)
    (hm : (mark = c!"begin" ∧ mk = .beginEnv) ∨ (mark = c!"end" ∧ mk = .endEnv)) (pos : Nat) :
    ∃ sp q, (Lexer.mk pos ('\\' :: mark ++ '{' :: name ++ '}' :: s)).nextToken = .ok (.token ⟨mk e, sp⟩, ⟨q, s⟩) := by
  have hw : isAsciiWs '\\' = false := by decide
  have hma : ∀ c ∈ mark, isAsciiAlpha c = true := by
    rcases hm with ⟨rfl, -⟩ | ⟨rfl, -⟩ <;> decide
  have hp : ∀ p, ¬ p + blen mark = p := by
    intro p
    rcases hm with ⟨rfl, -⟩ | ⟨rfl, -⟩
    · have : blen c!"begin" = 5 := by decide
      omega
    · have : blen c!"end" = 3 := by decide
      omega
  have hr : ∀ p r, Lexer.readWhile isAsciiAlpha p (mark ++ '{' :: r) = (mark, ⟨p + blen mark, '{' :: r⟩) := fun p r =>
    readWhile_eq isAsciiAlpha p mark _ hma fun c cs e => by cases e; decide
  have hc : ∀ p r, Lexer.readCommand ⟨p, mark ++ '{' :: r⟩ = (mark, p + blen mark, ⟨p + blen mark, '{' :: r⟩) := by
    intro p r
    unfold Lexer.readCommand
    dsimp only
    rw [hr]
    dsimp only
    have hs : Lexer.readStar mark ⟨p + blen mark, '{' :: r⟩ = (mark, ⟨p + blen mark, '{' :: r⟩) := rfl
    rw [hs]
    dsimp only
    rw [if_neg (hp p)]
  have hb : isAsciiWs '{' = false := by decide
  have henv : ∀ p, Lexer.readEnvName ⟨p, '{' :: (name ++ '}' :: s)⟩ =
      .ok (name, p + '{'.utf8Size + blen name + 1, ⟨p + '{'.utf8Size + blen name + '}'.utf8Size, s⟩) := by
    intro p
    have h := readWhile_eq Lexer.isEnvChar (p + '{'.utf8Size) name ('}' :: s)
      (fun c hc => by unfold Lexer.isEnvChar; rcases hn c hc with h | h <;> rw [h] <;> rfl) (fun c cs e => by cases e; decide)
    unfold Lexer.readEnvName
    simp only [Lexer.readChar]
    rw [h]
    rfl
  refine ⟨⟨pos, pos + '\\'.utf8Size + blen mark + '{'.utf8Size + blen name + 1⟩,
    pos + '\\'.utf8Size + blen mark + '{'.utf8Size + blen name + '}'.utf8Size, ?_⟩
  · unfold Lexer.nextToken Lexer.nextTokenFuel
    rw [List.append_assoc, List.cons_append, skip_none hw]
    dsimp only [Lexer.readChar]
    rw [if_neg (by decide)]
    unfold Lexer.tokenAt
    rw [if_neg (by decide), if_neg (by decide), if_pos rfl]
    rw [List.cons_append, hc]
    dsimp only
    rw [skip_none hb]
    dsimp only
    have hmk : Lexer.parseEnvMarker ⟨pos + '\\'.utf8Size + blen mark, '{' :: (name ++ '}' :: s)⟩
        ⟨pos, pos + '\\'.utf8Size + blen mark⟩ mark = Lexer.envMarker ⟨pos + '\\'.utf8Size + blen mark, '{' :: (name ++ '}' :: s)⟩
          ⟨pos, pos + '\\'.utf8Size + blen mark⟩ mk := by
      unfold Lexer.parseEnvMarker
      rcases hm with ⟨rfl, rfl⟩ | ⟨rfl, rfl⟩
      · rw [if_pos rfl]
      · rw [if_neg (by decide), if_pos rfl]
    rw [hmk]
    unfold Lexer.envMarker
    rw [skip_none hb]
    dsimp only
    rw [henv]
    dsimp only
    rw [he]

theorem prints_skip {ls : List Lexeme} {s : Str} (h : Prints ls s) (hl : ∀ l ∈ ls.head?, l.tight = false) :
    Prints ls (s.dropWhile isAsciiWs) := by
  induction h with
  | nil => exact .nil
  | space hc _ _ ih => rw [List.dropWhile_cons, hc]; exact ih hl
  | blank => cases hl _ rfl
  | @char c ls s hw hc h => rw [List.dropWhile_cons, hw]; exact .char hw hc h
  | @next c ls s hw hc h => rw [List.dropWhile_cons, hw]; exact .next hw hc h
  | word h1 h2 h3 h4 h => rw [List.cons_append, List.dropWhile_cons]; exact .word h1 h2 h3 h4 h
  | starred h1 h2 h3 h => rw [List.cons_append, List.dropWhile_cons]; exact .starred h1 h2 h3 h
  | sign h1 h2 h3 h => rw [List.dropWhile_cons]; exact .sign h1 h2 h3 h
  | opens h1 h => exact .opens h1 h
  | closes h1 h => exact .closes h1 h

theorem meaning_fixed {cfg : ParserConfig} {g : GlobalState} {name : Str} (hm : ¬ definedName cfg g name)
    (ht : (fixedTok name).isSome = true) (sp : Span) :
    meaningOf cfg g (.commandName name sp) = (fixedTok name).getD .relax := by
  obtain ⟨t, ht⟩ := Option.isSome_iff_exists.1 ht
  have n1 : g.customCmds.get name .document = none := by
    cases hg : g.customCmds.get name .document with
    | none => rfl
    | some _ => exact absurd (Or.inl (by rw [hg]; rfl)) hm
  have n2 : cfg.customCmds.get name .config = none := by
    cases hg : cfg.customCmds.get name .config with
    | none => rfl
    | some _ => exact absurd (Or.inr (by rw [hg]; rfl)) hm
  unfold meaningOf resolveLexed CmdStores.resolveCommand
  dsimp only
  rw [n1, n2]
  show (ParserConfig.builtin cfg name).getD _ = _
  unfold ParserConfig.builtin
  rw [fixed_builtin ht, ht]
  rfl

theorem fixed_ne {name : Str} (h : (fixedTok name).isSome = true) : name ≠ c!"begin" ∧ name ≠ c!"end" := by
  have h1 : (fixedTok c!"begin").isSome = false := by decide +kernel
  have h2 : (fixedTok c!"end").isSome = false := by decide +kernel
  refine ⟨fun e => ?_, fun e => ?_⟩
  · rw [e, h1] at h
    cases h
  · rw [e, h2] at h
    cases h

theorem prints_nil {ls : List Lexeme} {s : Str} (h : Prints ls s) (e : s = []) : ls = [] := by
  cases h with
  | nil => rfl
  | blank hw => exact absurd (List.append_eq_nil_iff.1 e).1 hw
  | _ => simp at e

/-- Sources are read as the tokens of their lexemes. -/
theorem prints_reads {cfg : ParserConfig} {g : GlobalState} (k : Nat) : ∀ (s : Str) (ls : List Lexeme), s.length ≤ k →
    Prints ls s → (∀ l ∈ ls, l.known (definedName cfg g)) → ∀ (pos n : Nat), s.length < n →
      (readTokens n ⟨pos, s⟩).2 = none ∧
      Reads ((readTokens n ⟨pos, s⟩).1.map (meaningOf cfg g))
        ((ls.map fun l => (⟨l.tok, l.tight⟩ : Tk)) ++ [⟨.eoi, false⟩]) := by
  induction k with
  | zero =>
    intro s ls hk h _ pos n hn
    cases s with
    | cons c s => exact absurd hk (by simp)
    | nil =>
      rw [prints_nil h rfl]
      cases n with
      | zero => exact absurd hn (by simp)
      | succ n => exact ⟨rfl, .tok .nil⟩
  | succ k ih =>
    intro s ls hk h hl pos n hn
    cases n with
    | zero => exact absurd hn (by omega)
    | succ n =>
    have drop : ∀ s : Str, (s.dropWhile isAsciiWs).length ≤ s.length := fun s => (List.dropWhile_suffix _).length_le
    cases h with
    | nil => exact ⟨rfl, .tok .nil⟩
    | @space c ls s hc hne h =>
      obtain ⟨sp, q, hx⟩ := next_space (s := s) hc pos
      have hlen : ((c :: s).dropWhile isAsciiWs).length ≤ s.length := by
        rw [List.dropWhile_cons, hc]
        exact drop s
      simp only [List.length_cons] at hk hn
      obtain ⟨h2, h3⟩ := ih _ ls (by omega) (prints_skip (.space hc hne h) hne) hl q n (by omega)
      unfold readTokens
      rw [hx]
      refine ⟨h2, ?_⟩
      dsimp only
      show Reads (_ :: List.map _ (readTokens n _).1) _
      cases ls with
      | nil => exact .ws rfl h3
      | cons t ts => exact .ws (hne t rfl) h3
    | @char c ls s hw hc h =>
      obtain ⟨sp, q, hx⟩ := next_typed (s := s) hw hc pos
      simp only [List.length_cons] at hk hn
      obtain ⟨h2, h3⟩ := ih s ls (by omega) h (fun l hm => hl l (List.mem_cons_of_mem _ hm)) q n (by omega)
      unfold readTokens
      rw [hx]
      dsimp only
      rw [(charToken_plain c sp).1]
      exact ⟨h2, .tok h3⟩
    | @next c ls s hw hc h =>
      obtain ⟨sp, q, hx⟩ := next_typed (s := s) hw hc pos
      simp only [List.length_cons] at hk hn
      obtain ⟨h2, h3⟩ := ih s ls (by omega) h (fun l hm => hl l (List.mem_cons_of_mem _ hm)) q n (by omega)
      unfold readTokens
      rw [hx]
      dsimp only
      rw [(charToken_plain c sp).1]
      exact ⟨h2, .tok h3⟩
    | @blank w ls s hne hb h =>
      cases w with
      | nil => exact absurd rfl hne
      | cons c w =>
      obtain ⟨sp, q, hx⟩ := next_space (s := w ++ s) (hb.1 c List.mem_cons_self) pos
      rw [← List.cons_append, blanks_skip hb] at hx
      simp only [List.length_append, List.length_cons] at hk hn
      obtain ⟨h2, h3⟩ := ih s ls (by omega) h (fun l hm => hl l (List.mem_cons_of_mem _ hm)) q n (by omega)
      unfold readTokens
      rw [hx]
      exact ⟨h2, .tok h3⟩
    | @word name w ls s hne hn' hb hs h =>
      have hk' := hl _ List.mem_cons_self
      have ⟨r3, r4⟩ := fixed_ne hk'.2
      obtain ⟨sp, q, hx⟩ := next_command (name := name) (s := w ++ s) hne hn' r3 r4 hs pos
      rw [blanks_skip hb] at hx
      simp only [List.length_append, List.length_cons] at hk hn
      obtain ⟨h2, h3⟩ := ih s ls (by omega) h (fun l hm => hl l (List.mem_cons_of_mem _ hm)) q n (by omega)
      unfold readTokens
      rw [hx]
      refine ⟨h2, ?_⟩
      dsimp only
      show Reads (meaningOf cfg g (.commandName name sp) :: List.map _ (readTokens n _).1) _
      rw [meaning_fixed hk'.1 hk'.2]
      exact .tok h3
    | @starred name w ls s hne hn' hb h =>
      have hk' := hl _ List.mem_cons_self
      obtain ⟨sp, q, hx⟩ := next_starred (name := name) (s := w ++ s) hne hn' pos
      rw [blanks_skip hb] at hx
      simp only [List.length_append, List.length_cons] at hk hn
      obtain ⟨h2, h3⟩ := ih s ls (by omega) h (fun l hm => hl l (List.mem_cons_of_mem _ hm)) q n (by omega)
      unfold readTokens
      rw [hx]
      refine ⟨h2, ?_⟩
      dsimp only
      show Reads (meaningOf cfg g (.commandName (name ++ ['*']) sp) :: List.map _ (readTokens n _).1) _
      rw [meaning_fixed hk'.1 hk'.2]
      exact .tok h3
    | @sign c w ls s h1 h2 hb h =>
      have hk' := hl _ List.mem_cons_self
      obtain ⟨sp, q, hx⟩ := next_sign (s := w ++ s) h1 h2 pos
      rw [blanks_skip hb] at hx
      simp only [List.length_append, List.length_cons] at hk hn
      obtain ⟨h2, h3⟩ := ih s ls (by omega) h (fun l hm => hl l (List.mem_cons_of_mem _ hm)) q n (by omega)
      unfold readTokens
      rw [hx]
      refine ⟨h2, ?_⟩
      dsimp only
      show Reads (meaningOf cfg g (.commandName [c] sp) :: List.map _ (readTokens n _).1) _
      rw [meaning_fixed hk'.1 hk'.2]
      exact .tok h3
    | @opens name ls s h1 h =>
      have hk' := hl _ List.mem_cons_self
      obtain ⟨e, he⟩ := Option.isSome_iff_exists.1 hk'
      obtain ⟨sp, q, hx⟩ := next_env (s := s) h1 he (.inl ⟨rfl, rfl⟩) pos
      simp only [List.length_append, List.length_cons] at hk hn
      obtain ⟨h2, h3⟩ := ih s ls (by omega) h (fun l hm => hl l (List.mem_cons_of_mem _ hm)) q n (by omega)
      have hx' : (Lexer.mk pos (c!"\\begin{" ++ name ++ '}' :: s)).nextToken = _ := hx
      unfold readTokens
      rw [hx']
      refine ⟨h2, ?_⟩
      dsimp only
      show Reads (.beginEnv e :: List.map _ (readTokens n _).1) _
      have ht : (Lexeme.opens name).tok = .beginEnv e := by
        show Token.beginEnv ((Env.fromStr name).getD .matrix) = _
        rw [he]
        rfl
      rw [List.map_cons, ht]
      exact .tok h3
    | @closes name ls s h1 h =>
      have hk' := hl _ List.mem_cons_self
      obtain ⟨e, he⟩ := Option.isSome_iff_exists.1 hk'
      obtain ⟨sp, q, hx⟩ := next_env (s := s) h1 he (.inr ⟨rfl, rfl⟩) pos
      simp only [List.length_append, List.length_cons] at hk hn
      obtain ⟨h2, h3⟩ := ih s ls (by omega) h (fun l hm => hl l (List.mem_cons_of_mem _ hm)) q n (by omega)
      have hx' : (Lexer.mk pos (c!"\\end{" ++ name ++ '}' :: s)).nextToken = _ := hx
      unfold readTokens
      rw [hx']
      refine ⟨h2, ?_⟩
      dsimp only
      show Reads (.endEnv e :: List.map _ (readTokens n _).1) _
      have ht : (Lexeme.closes name).tok = .endEnv e := by
        show Token.endEnv ((Env.fromStr name).getD .matrix) = _
        rw [he]
        rfl
      rw [List.map_cons, ht]
      exact .tok h3

theorem prints_spells {cfg : ParserConfig} {g : GlobalState} {s : Str} {ls : List Lexeme} (h : Prints ls s)
    (hl : ∀ l ∈ ls, l.known (definedName cfg g)) : Spells cfg g s (ls.map fun l => ⟨l.tok, l.tight⟩) :=
  prints_reads s.length s ls (Nat.le_refl _) h hl 0 (s.length + 1) (by omega)

end Verif

import Verif.Lemmas.Typed
import Verif.Lemmas.Alike
/-! Commands and the characters they show -/
namespace Verif
open Model Spec Lexer'

/-- What kind of part a token is in a formula of single tokens -/
inductive PartKind | number | big (o : Op) | named | symbol
  deriving DecidableEq

/-- The kind of a token -/
def partKind : Token → PartKind
  | .digit _ => .number
  | .op o | .mathOrTextMode (.op o) _ => .big o
  | .pseudoOperator _ | .pseudoOperatorLimits _ => .named
  | _ => .symbol

/-- Are these the same symbol, as parts of the same kind? -/
def swaps (t t' : Token) : Bool :=
  (sameTok t.unwrapMath t'.unwrapMath ||
    match t.unwrapMath, t'.unwrapMath with
    | .letter c _, .letter c' _ => decide (c = c')
    | _, _ => false) &&
  match partKind t, partKind t' with
  | .big o, .big o' => decide (o = o')
  | .symbol, .symbol => true
  | _, _ => false

theorem swaps_same {t t' : Token} (h : swaps t t' = true) : SameSymbol t t' := by
  unfold swaps at h
  rw [Bool.and_eq_true, Bool.or_eq_true] at h
  rcases h.1 with h | h
  · exact .inl (sameTok_eq h)
  · split at h
    · rename_i c m c' m' e e'
      exact .inr ⟨c, m, m', e, by rw [e', of_decide_eq_true h]⟩
    · cases h

/-- The entry of a table belongs to the character it shows, or it is an odd one. -/
def entrySwaps (p : Str × Token) : Bool :=
  decide (p.1 ∈ oddCommands) || !(atomOf p.2).isSome ||
    match glyph p.2 with
    | some c => !isSymbol c || (swaps p.2 (Lexer.charToken c) && stands p.2 (typedSymbol c))
    | none => true

set_option maxRecDepth 100000 in
theorem commands_swap0 : ((commands.drop 0).take 125).all entrySwaps = true := by decide +kernel

set_option maxRecDepth 100000 in
theorem commands_swap1 : ((commands.drop 125).take 125).all entrySwaps = true := by decide +kernel

set_option maxRecDepth 100000 in
theorem commands_swap2 : ((commands.drop 250).take 125).all entrySwaps = true := by decide +kernel

set_option maxRecDepth 100000 in
theorem commands_swap3 : ((commands.drop 375).take 125).all entrySwaps = true := by decide +kernel

set_option maxRecDepth 100000 in
theorem commands_swap4 : ((commands.drop 500).take 125).all entrySwaps = true := by decide +kernel

set_option maxRecDepth 100000 in
theorem commands_swap5 : ((commands.drop 625).take 125).all entrySwaps = true := by decide +kernel

set_option maxRecDepth 100000 in
theorem commands_swap6 : ((commands.drop 750).take 125).all entrySwaps = true := by decide +kernel

set_option maxRecDepth 100000 in
theorem commands_swap7 : (commands.drop 875).all entrySwaps = true := by decide +kernel

theorem all_split {α : Type} {p : α → Bool} {l : List α} {n k : Nat} (h1 : ((l.drop n).take k).all p = true)
    (h2 : (l.drop (n + k)).all p = true) : (l.drop n).all p = true := by
  rw [← List.take_append_drop k (l.drop n), List.all_append, h1, List.drop_drop, h2]
  rfl

/-- All entries, checked in parts to save memory -/
theorem commands_swap : commands.all entrySwaps = true :=
  all_split (n := 0) commands_swap0 <| all_split commands_swap1 <| all_split commands_swap2 <| all_split commands_swap3 <|
    all_split commands_swap4 <| all_split commands_swap5 <| all_split commands_swap6 commands_swap7

set_option maxRecDepth 100000 in
theorem substituted_swap : (substitutedCmds ++ unreliableCmds).all entrySwaps = true := by decide +kernel

theorem entry_mem {name : Str} {t : Token} {l : List (Str × Token)} (h : l.lookup name = some t) : (name, t) ∈ l := by
  induction l with
  | nil => cases h
  | cons q l ih =>
    rw [List.lookup_cons] at h
    split at h
    · rename_i he
      cases h
      have : name = q.1 := by simpa using he
      rw [this]
      exact List.mem_cons_self
    · exact List.mem_cons_of_mem _ (ih h)

theorem command_swaps {cfg : ParserConfig} {name : Str} {c : Char} (h : commandChar cfg name = some c)
    (hc : isSymbol c = true) (ho : name ∉ oddCommands) :
    ∃ t, cfg.builtin name = some t ∧ swaps t (Lexer.charToken c) = true ∧ stands t (typedSymbol c) = true := by
  unfold commandChar at h
  cases hb : cfg.builtin name with
  | none => rw [hb] at h; cases h
  | some t =>
    rw [hb] at h
    dsimp only at h
    split at h
    · rename_i ha
      refine ⟨t, rfl, ?_⟩
      have key : ∀ l : List (Str × Token), l.all entrySwaps = true → (name, t) ∈ l →
          swaps t (Lexer.charToken c) = true ∧ stands t (typedSymbol c) = true := by
        intro l hl hm
        have := List.all_eq_true.1 hl _ hm
        unfold entrySwaps at this
        dsimp only at this
        rw [h, ha] at this
        simpa [ho, hc] using this
      unfold ParserConfig.builtin resolveBuiltinCmd at hb
      simp only [Option.or_eq_some_iff] at hb
      rcases hb with hb | ⟨-, hb | ⟨-, hb | ⟨-, hb⟩⟩⟩
      · split at hb
        · exact key _ substituted_swap (List.mem_append_right _ (entry_mem hb))
        · cases hb
      · split at hb
        · exact key _ substituted_swap (List.mem_append_left _ (entry_mem hb))
        · cases hb
      · exact key _ commands_swap (entry_mem hb)
      · split at hb
        · cases hb
          cases h
        · cases hb
    · cases h

theorem swapped_skip {cfg : ParserConfig} {own : Str → Prop} {s s' : Str} (h : Swapped cfg own s s') :
    Swapped cfg own (s.dropWhile isAsciiWs) s' := by
  induction h with
  | nil => exact .nil
  | space hc _ ih =>
    rw [List.dropWhile_cons, hc]
    exact ih
  | @char c s s' hc hd h =>
    rw [List.dropWhile_cons]
    have : isAsciiWs c = false := by
      have := hc
      unfold isSymbol at this
      simp only [Bool.and_eq_true, Bool.not_eq_true'] at this
      exact this.1.1.1
    rw [this]
    exact .char hc hd h
  | command h1 h2 h3 h4 h5 h6 h7 h =>
    rw [List.cons_append, List.dropWhile_cons]
    exact .command h1 h2 h3 h4 h5 h6 h7 h

/-- Tokens for the characters -/
inductive Swaps : List Token → Str → Prop
  | nil : Swaps [] []
  | same {c ts cs} : Swaps ts cs → Swaps (Lexer.charToken c :: ts) (c :: cs)
  | other {t c ts cs} : swaps t (Lexer.charToken c) = true → Swaps ts cs → Swaps (t :: ts) (c :: cs)

theorem typed_continues {c : Char} (h1 : isAsciiDigit c = false) (h2 : c ≠ '.') : continuesDigits (typedSymbol c) = false := by
  unfold continuesDigits typedSymbol shownFor
  dsimp only
  repeat' split
  all_goals first
    | decide
    | (rw [h1]; simp [h2])

theorem swapped_reads {cfg : ParserConfig} {g : GlobalState} (k : Nat) : ∀ (s s' : Str), s.length ≤ k →
    Swapped cfg (definedName cfg g) s s' → ∀ (pos n : Nat), s.length < n → ∃ ts, Swaps ts s' ∧ Stand ts (s'.map typedSymbol) ∧
      (readTokens n ⟨pos, s⟩).2 = none ∧
      Reads ((readTokens n ⟨pos, s⟩).1.map (meaningOf cfg g)) ((ts.map fun t => (⟨t, false⟩ : Tk)) ++ [⟨.eoi, false⟩]) := by
  induction k with
  | zero =>
    intro s s' hk h pos n hn
    cases s with
    | cons c s => exact absurd hk (by simp)
    | nil =>
      cases h
      cases n with
      | zero => exact absurd hn (by simp)
      | succ n => exact ⟨[], .nil, .nil, rfl, .tok .nil⟩
  | succ k ih =>
    intro s s' hk h pos n hn
    cases n with
    | zero => exact absurd hn (by omega)
    | succ n =>
    cases h with
    | nil => exact ⟨[], .nil, .nil, rfl, .tok .nil⟩
    | @space c s s' hc h =>
      obtain ⟨sp, q, hx⟩ := next_space (s := s) hc pos
      have hlen : ((c :: s).dropWhile isAsciiWs).length ≤ s.length := by
        rw [List.dropWhile_cons, hc]
        exact (List.dropWhile_suffix _).length_le
      simp only [List.length_cons] at hk hn
      obtain ⟨ts, h1, h4, h2, h3⟩ := ih _ s' (by omega) (swapped_skip (.space hc h)) q n (by omega)
      refine ⟨ts, h1, h4, ?_, ?_⟩
      · unfold readTokens
        rw [hx]
        exact h2
      · unfold readTokens
        rw [hx]
        dsimp only
        show Reads (_ :: List.map _ (readTokens n _).1) _
        cases ts with
        | nil => exact .ws rfl h3
        | cons t ts => exact .ws rfl h3
    | @char c s s' hc hd h =>
      obtain ⟨sp, q, hx⟩ := next_char (s := s) hc pos
      simp only [List.length_cons] at hk hn
      obtain ⟨ts, h1, h4, h2, h3⟩ := ih s s' (by omega) h q n (by omega)
      refine ⟨Lexer.charToken c :: ts, .same h1, .cons (typed_stands hc) (fun d e => ?_)
        (fun d e => stand_next h4 (fun x hx => ?_)) h4, ?_, ?_⟩
      · obtain ⟨e1, e2⟩ := charToken_digit e
        rw [e2]
        exact e1
      · cases s' with
        | nil => cases hx
        | cons d' s' =>
          cases hx
          obtain ⟨k1, k2⟩ := hd (charToken_digit e).1 d' rfl
          exact typed_continues k1 k2
      · unfold readTokens
        rw [hx]
        dsimp only
        rw [(charToken_plain c sp).1]
        exact h2
      · unfold readTokens
        rw [hx]
        dsimp only
        rw [(charToken_plain c sp).1]
        exact .tok h3
    | @command name c s s' r1 r2 hc hy ho hm hs h =>
      obtain ⟨t, ht, hst, hst'⟩ := command_swaps hc hy ho
      have hnd : ∀ d, t ≠ .digit d := by
        intro d e
        rw [e] at hst
        unfold swaps at hst
        rw [Bool.and_eq_true] at hst
        cases hst.2
      have r3 : name ≠ c!"begin" := by
        intro e
        rw [e] at ht
        have : ∀ u s, (resolveBuiltinCmd u s c!"begin").isNone = true := by
          intro u s
          cases u <;> cases s <;> decide +kernel
        rw [show cfg.builtin c!"begin" = none from Option.isNone_iff_eq_none.1 (this _ _)] at ht
        cases ht
      have r4 : name ≠ c!"end" := by
        intro e
        rw [e] at ht
        have : ∀ u s, (resolveBuiltinCmd u s c!"end").isNone = true := by
          intro u s
          cases u <;> cases s <;> decide +kernel
        rw [show cfg.builtin c!"end" = none from Option.isNone_iff_eq_none.1 (this _ _)] at ht
        cases ht
      obtain ⟨sp, q, hx⟩ := next_command (name := name) (s := s) r1 r2 r3 r4 hs pos
      have hlen : (s.dropWhile isAsciiWs).length ≤ s.length := (List.dropWhile_suffix _).length_le
      simp only [List.length_append, List.length_cons] at hk hn
      obtain ⟨ts, h1, h4, h2, h3⟩ := ih _ s' (by omega) (swapped_skip h) q n (by omega)
      have hmean : meaningOf cfg g (.commandName name sp) = t := by
        have n1 : g.customCmds.get name .document = none := by
          cases hg : g.customCmds.get name .document with
          | none => rfl
          | some _ => exact absurd (Or.inl (by rw [hg]; rfl)) hm
        have n2 : cfg.customCmds.get name .config = none := by
          cases hg : cfg.customCmds.get name .config with
          | none => rfl
          | some _ => exact absurd (Or.inr (by rw [hg]; rfl)) hm
        unfold meaningOf resolveLexed CmdStores.resolveCommand
        dsimp only
        rw [n1, n2]
        show (ParserConfig.builtin cfg name).getD _ = t
        rw [ht]
        rfl
      refine ⟨t :: ts, .other hst h1, .cons hst' (fun d e => absurd e (hnd d)) (fun d e => absurd e (hnd d)) h4, ?_, ?_⟩
      · unfold readTokens
        rw [hx]
        exact h2
      · unfold readTokens
        rw [hx]
        dsimp only
        show Reads (meaningOf cfg g (.commandName name sp) :: List.map _ (readTokens n _).1) _
        rw [hmean]
        exact .tok h3

theorem swapped_spells {cfg : ParserConfig} {g : GlobalState} {s s' : Str} (h : Swapped cfg (definedName cfg g) s s') :
    ∃ ts, Swaps ts s' ∧ Stand ts (s'.map typedSymbol) ∧ Spells cfg g s (ts.map fun t => ⟨t, false⟩) := by
  obtain ⟨ts, h1, h4, h2, h3⟩ := swapped_reads s.length s s' (Nat.le_refl _) h 0 (s.length + 1) (by omega)
  exact ⟨ts, h1, h4, h2, h3⟩

theorem digit_charToken {c : Char} (h : isAsciiDigit c = true) : Lexer.charToken c = .digit c := by
  have h' := h
  simp only [isAsciiDigit, Bool.and_eq_true, decide_eq_true_eq] at h'
  unfold Lexer.charToken
  split <;> first
    | (exfalso; revert h; decide)
    | rw [h]; rfl

/-- The second source is one of those which are only characters. -/
theorem swapped_typed {cfg : ParserConfig} {own : Str → Prop} {s s' : Str} (h : Swapped cfg own s s') :
    Swapped cfg own s' s' := by
  induction h with
  | nil => exact .nil
  | space _ _ ih => exact ih
  | char hc hd _ ih => exact .char hc hd ih
  | @command name c s s' _ _ h3 hc ho _ _ _ ih =>
    refine .char hc (fun hd => ?_) ih
    obtain ⟨t, -, ht, -⟩ := command_swaps h3 hc ho
    rw [digit_charToken hd] at ht
    unfold swaps at ht
    rw [Bool.and_eq_true] at ht
    have := ht.2
    revert this
    cases partKind t <;> nofun

theorem swaps_big {t : Token} {o : Op} (h : partKind t = .big o) (ts : List Token) :
    ∃ ch, formOf (t :: ts) = .bigOp ⟨o, none, ch⟩ .nil (formOf ts) := by
  cases t
  case op => cases h; exact ⟨none, rfl⟩
  case mathOrTextMode t' c => cases t' <;> first | (cases h; exact ⟨some c, rfl⟩) | cases h
  all_goals cases h

theorem swaps_symbol {t : Token} (h : partKind t = .symbol) (ts : List Token) :
    formOf (t :: ts) = .item (.atom t) .nil (formOf ts) := by
  cases t
  case mathOrTextMode t' c => cases t' <;> first | rfl | cases h
  all_goals first | rfl | cases h

theorem same_alike (t : Token) {ts ts' : List Token} (h : (formOf ts).Alike (formOf ts')) :
    (formOf (t :: ts)).Alike (formOf (t :: ts')) := by
  cases t
  case mathOrTextMode t' c =>
    cases t' <;> first | exact .bigOp .nil h | exact .item (.atom (.inl rfl)) .nil h
  all_goals first
    | exact .bigOp .nil h
    | exact .item (.atom (.inl rfl)) .nil h
    | exact .item .number .nil h
    | exact .func .nil h

/-- The two formulas differ only in how their symbols are written. -/
theorem swaps_alike {ts : List Token} {cs : Str} (h : Swaps ts cs) :
    (formOf ts).Alike (formOf (cs.map Lexer.charToken)) := by
  induction h with
  | nil => exact .nil
  | same _ ih => exact same_alike _ ih
  | @other t c ts cs ht _ ih =>
    rw [List.map_cons]
    have hs := swaps_same ht
    unfold swaps at ht
    rw [Bool.and_eq_true] at ht
    have hk := ht.2
    split at hk
    · rename_i o o' e e'
      obtain ⟨ch, hf⟩ := swaps_big e ts
      obtain ⟨ch', hf'⟩ := swaps_big e' (cs.map Lexer.charToken)
      rw [hf, hf', of_decide_eq_true hk]
      exact .bigOp .nil ih
    · rename_i e e'
      rw [swaps_symbol e, swaps_symbol e']
      exact .item (.atom hs) .nil ih
    · cases hk


end Verif

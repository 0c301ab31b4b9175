import Verif.Lemmas.Groups
import Verif.Lemmas.SuperChar
import Verif.Spec.Emittable
import Verif.Spec.Nesting
/-! How much work a token can cause, and which tokens the tokeniser and the built-in commands give. -/
namespace Verif
open Model Spec Lexer' TokenQueue

/-- A measure of the work a token can cause without the expansion of a macro -/
def weight : Token → Nat
  | .eoi => 0
  | .dots => 4
  | .unresolvedCommand _ => 4
  | .mathOrTextMode t _ => max 1 (weight t)
  | .mathChoiceInternal _ d t s ss => 1 + max (max (weight d) (weight t)) (max (weight s) (weight ss))
  | _ => 1

/-- Text which needs no escaping (see `PlainText`) -/
def plainStrB (s : Str) : Bool := s.all fun c => c != '<' && c != '>' && c != '&'

/-- No two flags which contradict each other (see `FlagsOk`) -/
def flagsOkB (a : OpAttrs) : Bool :=
  !(a.getLsbD 0 && a.getLsbD 1) && !(a.getLsbD 2 && a.getLsbD 3) && !(a.getLsbD 4 && a.getLsbD 5) &&
  !(a.getLsbD 4 && a.getLsbD 6) && !(a.getLsbD 5 && a.getLsbD 6)

/-- A character which needs no escaping -/
def plainCharB (c : Char) : Bool := c != '<' && c != '>' && c != '&'

/-- A symbol with a base character which needs no escaping -/
def letterOkB (s : SuperChar) : Bool :=
  s == symWord s.baseChar s.vs (s &&& solidusBit != 0#32) (s &&& verticalLineBit != 0#32) && plainCharB s.baseChar

/-- The commands which are excluded: some things hold only for formulas without certain commands. -/
class Limits where
  /-- no `\global` and no `\gdef` -/
  noGlobal : Bool
  /-- no `\set`, `\Set` and `\Braket` -/
  noBars : Bool
  /-- no `\newcommand` and no `\providecommand` -/
  noNew : Bool

/-- Nothing is excluded. -/
@[instance_reducible] def Limits.nothing : Limits := ⟨false, false, false⟩

/-- The name is not excluded. -/
def nameOk [L : Limits] (name : Str) : Bool :=
  !(L.noGlobal && [c!"global", c!"gdef"].contains name) &&
  !(L.noBars && [c!"set", c!"Set", c!"Braket"].contains name) &&
  !(L.noNew && [c!"newcommand", c!"providecommand"].contains name)

theorem nameOk_nothing (name : Str) : @nameOk .nothing name = true := rfl

/-- What the texts and flags in a token are like. Some tokens may be excluded, and there are no parameters outside
of the body of a macro. -/
def payloadOk [L : Limits] : Token → Bool
  | .letter s _ => letterOkB s
  | .uprightLetter s => letterOkB s
  | .digit c => isAsciiDigit c
  | .pseudoOperator s => plainStrB s
  | .pseudoOperatorLimits s => plainStrB s
  | .internalStringLiteral s => plainStrB s
  | .accent _ _ attrs => flagsOkB attrs
  | .customCmdArgInput i => i < 9
  | .customCmdArg _ => false
  | .globalPrefix => !L.noGlobal
  | .defCmd isGlobal => !(L.noGlobal && isGlobal)
  | .newCommand m => !(L.noNew && m != .renew)
  | .verticalLineDef _ => !L.noBars
  | .unresolvedCommand name => nameOk name
  | _ => true

/-- A parameter in the body of a macro -/
def argOk : Token → Bool
  | .customCmdArg i => i < 9
  | _ => false

/-- A token with a variant for text mode -/
def twoModes : Token → Bool
  | .mathOrTextMode .. => true
  | _ => false

/-- A token which opens and closes nothing and is not `&` -/
def calm : Token → Bool
  | .groupBegin | .groupEnd | .left | .right | .beginEnv _ | .endEnv _ | .newColumn => false
  | _ => true

/-- A token which can be read on its own: it is neither a macro, nor a definition, nor the end. -/
def single (t : Token) : Bool := !isMacro t && !isDefinition t && !t.isEoi

mutual
/-- A token in which there is nowhere a reference to a stored body, in which variants for text mode
are only for proper tokens, in which there are at most nine parameters, and whose texts and flags are as they should
be; excluded tokens are not in it either -/
def plain [Limits] : Token → Bool
  | .customCmdRef .. => false
  | .mathOrTextMode t c => plain t && !t.isEoi && (!t.isWs && !twoModes t && calm t && (single t || c == '…'))
  | .mathChoiceInternal _ d t s ss => plain d && plain t && plain s && plain ss
  | .customCmd n body => n ≤ 9 && plainAll body
  | t => payloadOk t
/-- See `plain`. -/
def plainAll [Limits] : List Token → Bool
  | [] => true
  | t :: ts => (plain t || argOk t) && plainAll ts
end

theorem plainText_iff {s : Str} : plainStrB s = true ↔ PlainText s := by
  unfold plainStrB PlainText
  rw [List.all_eq_true]
  constructor
  · intro h
    refine ⟨?_, ?_, ?_⟩ <;> (intro hm; have := h _ hm; revert this; decide)
  · intro ⟨h1, h2, h3⟩ c hc
    simp only [Bool.and_eq_true, bne_iff_ne, ne_eq]
    exact ⟨⟨fun e => h1 (e ▸ hc), fun e => h2 (e ▸ hc)⟩, fun e => h3 (e ▸ hc)⟩

theorem flagsOkB_iff {a : OpAttrs} : flagsOkB a = true ↔ FlagsOk a := by
  simp only [flagsOkB, FlagsOk, Bool.and_eq_true, Bool.not_eq_true', Bool.and_eq_false_iff, not_and, and_assoc,
    Bool.not_eq_true]
  cases a.getLsbD 0 <;> cases a.getLsbD 1 <;> cases a.getLsbD 2 <;> cases a.getLsbD 3 <;> cases a.getLsbD 4 <;>
    cases a.getLsbD 5 <;> cases a.getLsbD 6 <;> simp

/-- A symbol with a base character which needs no escaping -/
def LetterOk (s : SuperChar) : Prop := ∃ c v so l, s = symWord c v so l ∧ plainCharB c = true

theorem bne_of_iff {x : BitVec 32} {b : Bool} (h : x ≠ 0#32 ↔ b = true) : (x != 0#32) = b := by
  rw [Bool.eq_iff_iff, bne_iff_ne]; exact h

theorem letterOkB_iff {s : SuperChar} : letterOkB s = true ↔ LetterOk s := by
  unfold letterOkB LetterOk
  rw [Bool.and_eq_true, beq_iff_eq]
  constructor
  · intro ⟨h1, h2⟩
    exact ⟨_, _, _, _, h1, h2⟩
  · rintro ⟨c, v, so, l, rfl, h⟩
    rw [symWord_baseChar]
    refine ⟨?_, h⟩
    have hv : SuperChar.vs (symWord c v so l) = v := by
      unfold symWord
      cases v with
      | none => exact pack_vs_zero (char_lt c).1
      | some k => exact pack_vs_succ (char_lt c).1 k
    have hs : (symWord c v so l &&& solidusBit != 0#32) = so := bne_of_iff (pack_and_solidus (char_lt c).1)
    have hl : (symWord c v so l &&& verticalLineBit != 0#32) = l := bne_of_iff (pack_and_vline (char_lt c).1)
    rw [hv, hs, hl]

theorem letterOk_fromChar {c : Char} (h : plainCharB c = true) : LetterOk (SuperChar.fromChar c) :=
  ⟨c, none, false, false, fromChar_eq c, h⟩

theorem functions_plain : functions.all plainStrB = true := by decide +kernel

variable [L : Limits]

theorem plainAll_mem {l : List Token} (h : plainAll l = true) : ∀ t ∈ l, plain t = true ∨ argOk t = true := by
  induction l with
  | nil => simp
  | cons t ts ih =>
    rw [plainAll, Bool.and_eq_true, Bool.or_eq_true] at h
    intro x hx
    rcases List.mem_cons.1 hx with rfl | hx
    · exact h.1
    · exact ih h.2 x hx

/-- What is known about a token found in the source -/
def lexOk (t : Token) : Bool := plain t && decide (weight t ≤ 4)

/-- What is known about a built-in command -/
def builtinOkB (t : Token) : Bool := plain t && decide (weight t ≤ 4) && !t.isEoi && !t.isWs

theorem unicode_lexOk :
    unicodeOperators.all (fun e => builtinOkB e.2 && (!twoModes e.2 && calm e.2 && single e.2)) = true := by
  obtain ⟨a, b, c⟩ := L
  cases a <;> cases b <;> cases c <;> decide +kernel

/-- The built-in commands which are not excluded -/
def entryOk (e : Str × Token) : Bool := !nameOk e.1 || builtinOkB e.2

theorem commands_ok :
    (commands.all entryOk && unreliableCmds.all entryOk && substitutedCmds.all entryOk) = true := by
  obtain ⟨a, b, c⟩ := L
  cases a <;> cases b <;> cases c <;> decide +kernel

omit L in
theorem assoc_mem {α β : Type} [BEq α] [LawfulBEq α] {l : List (α × β)} {k : α} {v : β} (h : l.lookup k = some v) :
    (k, v) ∈ l := by
  induction l with
  | nil => cases h
  | cons e l ih =>
    obtain ⟨k', v'⟩ := e
    rw [List.lookup_cons] at h
    split at h
    · rename_i hk
      cases h
      rw [eq_of_beq hk]; simp
    · exact List.mem_cons_of_mem _ (ih h)

omit L in
theorem lookup_allB {α β : Type} [BEq α] [LawfulBEq α] {l : List (α × β)} {p : β → Bool}
    (h : l.all (fun e => p e.2) = true) {k : α} {v : β} (hl : l.lookup k = some v) : p v = true :=
  List.all_eq_true.1 h _ (assoc_mem hl)

theorem lookup_entryOk {l : List (Str × Token)} (h : l.all entryOk = true) {k v} (hk : nameOk k = true)
    (hl : l.lookup k = some v) : builtinOkB v = true := by
  have := List.all_eq_true.1 h _ (assoc_mem hl)
  simpa [entryOk, hk] using this

theorem builtin_builtinOk {cfg : ParserConfig} {name t} (hk : nameOk name = true) (h : cfg.builtin name = some t) :
    builtinOkB t = true := by
  have hc := commands_ok
  simp only [Bool.and_eq_true] at hc
  unfold ParserConfig.builtin resolveBuiltinCmd at h
  rw [Option.or_eq_some_iff, Option.or_eq_some_iff, Option.or_eq_some_iff] at h
  rcases h with h | ⟨-, h | ⟨-, h | ⟨-, h⟩⟩⟩
  · split at h
    · exact lookup_entryOk hc.1.2 hk h
    · cases h
  · split at h
    · exact lookup_entryOk hc.2 hk h
    · cases h
  · exact lookup_entryOk hc.1.1 hk h
  · split at h
    · rename_i hf
      cases h
      have hp : plainStrB name = true := List.all_eq_true.1 functions_plain name (List.contains_iff_mem.1 hf)
      simp [builtinOkB, plain, payloadOk, hp, weight, Token.isEoi, Token.isWs]
    · cases h

theorem builtinOkB_iff {t} : builtinOkB t = true ↔
    plain t = true ∧ weight t ≤ 4 ∧ t.isEoi = false ∧ t.isWs = false := by
  simp [builtinOkB, and_assoc]

theorem letterTok_lexOk {c : Char} (h : plainCharB c = true) : lexOk (Lexer.letterTok c) = true := by
  have := letterOkB_iff.2 (letterOk_fromChar h)
  simp [lexOk, Lexer.letterTok, plain, payloadOk, weight, this]

theorem charToken_lexOk (c : Char) : lexOk (Lexer.charToken c) = true := by
  unfold Lexer.charToken
  split <;> first
    | rfl
    | (apply letterTok_lexOk; decide)
    | skip
  rename_i h1 h2 h3 h4 h5 _ _ _ _ _ _ _ _ _ _ _ _ _ _ _ _ _ _ _ _ _
  have hp : plainCharB c = true := by
    simp only [plainCharB, Bool.and_eq_true, bne_iff_ne, ne_eq]
    refine ⟨⟨?_, ?_⟩, ?_⟩ <;> assumption
  split
  · rename_i h; simp [lexOk, plain, payloadOk, weight, h]
  · split
    · exact letterTok_lexOk hp
    · split
      · rename_i tok h
        unfold getOperatorFromUnicode at h
        rw [Option.map_eq_some_iff] at h
        obtain ⟨t, h, rfl⟩ := h
        have ha := lookup_allB (p := fun t => builtinOkB t && (!twoModes t && calm t && single t)) unicode_lexOk h
        simp only [Bool.and_eq_true, Bool.not_eq_true'] at ha
        have := builtinOkB_iff.1 ha.1
        have h4 : max 1 (weight t) ≤ 4 := by omega
        simp [lexOk, plain, weight, this.1, this.2.2.1, this.2.2.2, h4, ha.2.1.1, ha.2.1.2, ha.2.2]
      · exact letterTok_lexOk hp

/-- The tokens found in the source -/
def OutOk : LexerOutput → Prop
  | .token t => lexOk t.tok = true
  | .commandName _ _ => True

theorem envMarker_outOk {l : Lexer} {span mk out l'} (hmk : ∀ e, lexOk (mk e) = true)
    (h : l.envMarker span mk = .ok (out, l')) : OutOk out := by
  obtain ⟨a, e, -, -, rfl⟩ := envMarker_ok h
  exact hmk e

theorem tokenAt_outOk {l : Lexer} {loc ch out l'} (h : l.tokenAt loc ch = .ok (out, l')) : OutOk out := by
  unfold Lexer.tokenAt at h
  split at h
  · cases h
  · split at h
    · unfold Lexer.paramToken at h
      split at h
      · cases h
      · rename_i d _ _
        split at h
        · split at h
          · cases h
            simp only [isAsciiDigit, Bool.and_eq_true, decide_eq_true_eq] at *
            have h1 : d.toNat ≤ '9'.toNat := ‹_ ∧ _›.2
            have : '9'.toNat = '1'.toNat + 8 := rfl
            have : d.toNat - '1'.toNat < 9 := by omega
            simpa [OutOk, lexOk, plain, payloadOk, weight] using this
          · cases h
        · cases h
    · split at h
      · simp only [Lexer.parseEnvMarker] at h
        split at h
        · exact envMarker_outOk (fun _ => rfl) h
        · split at h
          · exact envMarker_outOk (fun _ => rfl) h
          · cases h; trivial
      · cases h
        exact charToken_lexOk ch

theorem nextTokenFuel_outOk {fuel : Nat} {l : Lexer} {out l'} (h : Lexer.nextTokenFuel fuel l = .ok (out, l')) :
    OutOk out := by
  induction fuel generalizing l with
  | zero => cases h; rfl
  | succ fuel ih =>
    unfold Lexer.nextTokenFuel at h
    split at h
    · cases h; rfl
    · split at h
      · cases h; rfl
      · split at h
        · exact ih h
        · exact tokenAt_outOk h

theorem nextToken_outOk {l : Lexer} {out l'} (h : l.nextToken = .ok (out, l')) : OutOk out :=
  nextTokenFuel_outOk h

omit L in
theorem customGet_ref {c : CustomCmds} {name src t} (h : c.get name src = some t) :
    ∃ n cl a b, t = .customCmdRef src n cl a b := by
  unfold CustomCmds.get at h
  split at h
  · cases h
  · cases h; exact ⟨_, _, _, _, rfl⟩

/-- What a name can mean: a reference or a built-in command -/
theorem resolve_cases {cfg : ParserConfig} {stores : CmdStores} {name t} (hk : nameOk name = true)
    (h : stores.resolveCommand cfg.builtin name = some t) :
    (∃ src n cl a b, t = .customCmdRef src n cl a b) ∨ builtinOkB t = true := by
  unfold CmdStores.resolveCommand at h
  split at h
  · rename_i tok hs
    cases h
    rw [Option.or_eq_some_iff, Option.or_eq_some_iff] at hs
    rcases hs with (hs | ⟨-, hs⟩) | ⟨-, hs⟩ <;>
      (obtain ⟨n, cl, a, b, rfl⟩ := customGet_ref hs; exact Or.inl ⟨_, n, cl, a, b, rfl⟩)
  · exact Or.inr (builtin_builtinOk hk h)

omit L in
theorem resolve_weight {cfg : ParserConfig} {stores : CmdStores} {name t}
    (h : stores.resolveCommand cfg.builtin name = some t) : weight t ≤ 4 := by
  rcases @resolve_cases .nothing _ _ _ _ rfl h with ⟨_, _, _, _, _, rfl⟩ | h
  · simp [weight]
  · exact ((@builtinOkB_iff .nothing _).1 h).2.1

omit L in
theorem weight_weights (cfg : ParserConfig) : Weights weight 4 cfg := by
  refine ⟨rfl, ?_⟩
  intro stores l out l' h
  have ho := @nextToken_outOk .nothing _ _ _ h
  cases out with
  | token t =>
    simp only [OutOk, lexOk, Bool.and_eq_true, decide_eq_true_eq] at ho
    exact ho.2
  | commandName name span =>
    simp only [resolveLexed]
    cases hr : stores.resolveCommand cfg.builtin name with
    | none => simp [weight]
    | some t => exact resolve_weight hr

omit L in
theorem tokWeight_pos {t : Token} (h : t.isEoi = false) : 1 ≤ weight t := by
  cases t with
  | eoi => cases h
  | _ => simp only [weight]; omega

omit L in
theorem weight_unwrap {t : Token} : weight t.unwrapMath ≤ weight t := by
  unfold Token.unwrapMath
  split
  · simp only [weight]; omega
  · exact Nat.le_refl _

end Verif

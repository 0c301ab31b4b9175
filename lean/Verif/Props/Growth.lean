import Verif.Props.Preamble
import Verif.Props.Expansion
/-! C46: the size of the output is not bounded by the size of the source. -/
namespace Verif
open Model Spec

/-- So many `\d`, and `1` -/
def growthTail : Nat → Str
  | 0 => c!"1"
  | n + 1 => '\\' :: 'd' :: growthTail n

/-- `\def\d#1#2{#2{#1#1}}\d{x}\d\d…\d1`. Every `\d` doubles its first argument and hands it over to the next one. -/
def growthSource (n : Nat) : Str := c!"\\def\\d#1#2{#2{#1#1}}\\d{x}" ++ growthTail n

/-- The macro -/
def growthToken : Token := .customCmdRef .loc 2 (some .opening) 0 5

/-- Its body -/
def growthBody : List RecordedToken :=
  [.token (.customCmdArg 1), .token .groupBegin, .token (.customCmdArg 0), .token (.customCmdArg 0), .token .groupEnd]

/-- What is known after the definition -/
def growthStores : CmdStores := withDefinition ⟨plainParser.customCmds, {}, {}⟩ c!"d" 2 growthBody (some .opening) false

/-- The definition -/
def growthDefs : List LexerOutput :=
  [.commandName c!"def" ⟨0, 4⟩, .commandName c!"d" ⟨4, 6⟩, .token ⟨.customCmdArgInput 0, ⟨6, 8⟩⟩,
    .token ⟨.customCmdArgInput 1, ⟨8, 10⟩⟩, .token ⟨.groupBegin, ⟨10, 11⟩⟩, .token ⟨.customCmdArgInput 1, ⟨11, 13⟩⟩,
    .token ⟨.groupBegin, ⟨13, 14⟩⟩, .token ⟨.customCmdArgInput 0, ⟨14, 16⟩⟩, .token ⟨.customCmdArgInput 0, ⟨16, 18⟩⟩,
    .token ⟨.groupEnd, ⟨18, 19⟩⟩, .token ⟨.groupEnd, ⟨19, 20⟩⟩]

/-- `\d{x}` -/
def growthStart : List LexerOutput :=
  [.commandName c!"d" ⟨20, 22⟩, .token ⟨.groupBegin, ⟨22, 23⟩⟩, .token ⟨ch 'x', ⟨23, 24⟩⟩,
    .token ⟨.groupEnd, ⟨24, 25⟩⟩]

/-- The tokens of the tail -/
def growthEnd : Nat → Nat → List LexerOutput
  | pos, 0 => [.token ⟨.digit '1', ⟨pos, pos + 1⟩⟩, .token ⟨.eoi, ⟨pos + 1, pos + 1⟩⟩]
  | pos, n + 1 => .commandName c!"d" ⟨pos, pos + 2⟩ :: growthEnd (pos + 2) n

theorem growth_tail (n : Nat) : ∀ pos m, n + 2 ≤ m → readTokens m ⟨pos, growthTail n⟩ = (growthEnd pos n, none) := by
  induction n with
  | zero =>
    intro pos m hm
    obtain ⟨m, rfl⟩ : ∃ k, m = k + 2 := ⟨m - 2, by omega⟩
    rfl
  | succ n ih =>
    intro pos m hm
    obtain ⟨m, rfl⟩ : ∃ k, m = k + 1 := ⟨m - 1, by omega⟩
    have h : Lexer.nextToken ⟨pos, growthTail (n + 1)⟩ = .ok (.commandName c!"d" ⟨pos, pos + 2⟩, ⟨pos + 2, growthTail n⟩) := by
      have hc : Lexer.readCommand ⟨pos + 1, 'd' :: growthTail n⟩ = (c!"d", pos + 1 + 1, ⟨pos + 1 + 1, growthTail n⟩) := by
        cases n <;> exact if_neg (by show ¬ pos + 1 + 1 = pos + 1; omega)
      have ht : Lexer.tokenAt ⟨pos + 1, 'd' :: growthTail n⟩ pos '\\' =
          .ok (.commandName c!"d" ⟨pos, pos + 2⟩, ⟨pos + 2, growthTail n⟩) := by
        unfold Lexer.tokenAt
        rw [hc]
        cases n <;> rfl
      exact ht
    unfold readTokens
    rw [h]
    dsimp only [isEoi]
    rw [ih (pos + 2) m (by omega)]
    rfl

theorem growthTail_length (n : Nat) : (growthTail n).length = 2 * n + 1 := by
  induction n with
  | zero => rfl
  | succ n ih => simp only [growthTail, List.length_cons, ih]; omega

theorem growthSource_length (n : Nat) : (growthSource n).length = 2 * n + 26 := by
  simp only [growthSource, List.length_append, growthTail_length]
  show 25 + (2 * n + 1) = 2 * n + 26
  omega

theorem growth_tokens (n : Nat) : tokensOf (growthSource n) = (growthDefs ++ (growthStart ++ growthEnd 25 n), none) := by
  unfold tokensOf
  rw [growthSource_length]
  have h : ∀ m tail, readTokens (m + 15) (Lexer.new (c!"\\def\\d#1#2{#2{#1#1}}\\d{x}" ++ tail)) =
      (growthDefs ++ (growthStart ++ (readTokens m ⟨25, tail⟩).1), (readTokens m ⟨25, tail⟩).2) := by
    intro m tail
    rfl
  rw [show 2 * n + 26 + 1 = (2 * n + 12) + 15 from by omega]
  unfold growthSource
  rw [h, growth_tail n 25 _ (by omega)]

theorem growth_definition : Defines plainParser ⟨plainParser.customCmds, {}, {}⟩ growthDefs
    ⟨none, c!"d", 2, .ok growthBody, some .opening, false⟩ :=
  .definition (gl := []) (w := []) (w' := []) (w'' := []) (g := false) (ps := (growthDefs.drop 2).take 2) (n := 2)
    (body := (growthDefs.drop 5).take 5) (b := growthDefs.drop 4) .nil blanks_nil (by kernel_rfl) blanks_nil blanks_nil rfl
    (.mk rfl rfl rfl (by
      intro o ho h
      have ho : o ∈ [LexerOutput.token ⟨.customCmdArgInput 1, ⟨11, 13⟩⟩, .token ⟨.groupBegin, ⟨13, 14⟩⟩,
        .token ⟨.customCmdArgInput 0, ⟨14, 16⟩⟩, .token ⟨.customCmdArgInput 0, ⟨16, 18⟩⟩,
        .token ⟨.groupEnd, ⟨18, 19⟩⟩] := ho
      simp only [List.mem_cons, List.not_mem_nil, or_false] at ho
      rcases ho with rfl | rfl | rfl | rfl | rfl <;> cases h))

theorem growth_begins (n : Nat) : BeginsWith plainParser {} (growthSource n) (.ok growthStores)
    (growthStart ++ growthEnd 25 n) := by
  refine ⟨growthDefs, growth_tokens n, ?_⟩
  rw [← List.append_nil growthDefs]
  exact .cons growth_definition rfl .nil

/-! ### The formula which the source stands for -/

/-- So many letters, as tokens -/
def growthLetters (m : Nat) : List Tk := List.replicate m ⟨ch 'x', false⟩

/-- So many letters -/
def lettersForm : Nat → Form
  | 0 => .nil
  | m + 1 => .item (.atom (ch 'x')) .nil (lettersForm m)

/-- `\d{x…x}\d…\d1` with `m` letters and `n` further calls, and what it becomes -/
def growthForm : Nat → Nat → Form
  | 0, m => .call growthToken [.braces (growthLetters m), .tok (.digit '1')] (m + m + 3)
      (.item (.number '1' []) .nil (.item (.group (lettersForm (m + m))) .nil .nil))
  | n + 1, m => .call growthToken [.braces (growthLetters m), .tok growthToken] (m + m + 3) (growthForm n (m + m))

theorem letters_tokens (m : Nat) : (lettersForm m).tokens = growthLetters m := by
  induction m with
  | zero => rfl
  | succ m ih =>
    simp only [lettersForm, Form.tokens, ih, growthLetters, List.replicate_succ]
    rfl

/-- The tokens after the first argument -/
def growthRest : Nat → List Tk
  | 0 => [⟨.digit '1', false⟩]
  | n + 1 => ⟨growthToken, false⟩ :: growthRest n

theorem growthLetters_length (m : Nat) : (growthLetters m).length = m := List.length_replicate ..

theorem letters_isEmpty {m : Nat} (hm : 0 < m) : (growthLetters m).isEmpty = false := by
  obtain ⟨m, rfl⟩ : ∃ k, m = k + 1 := ⟨m - 1, by omega⟩
  rfl

/-- `t{x…x}` -/
def growthCall (t : Token) (m : Nat) : List Tk :=
  ⟨t, false⟩ :: ⟨.groupBegin, false⟩ :: (growthLetters m ++ [⟨.groupEnd, false⟩])

theorem growthCall_length (t : Token) (m : Nat) : (growthCall t m).length = m + 3 := by
  simp only [growthCall, List.length_cons, List.length_append, growthLetters_length, List.length_nil]

theorem growth_last (m : Nat) : (Form.item (.number '1' []) .nil (.item (.group (lettersForm m)) .nil .nil)).tokens =
    growthCall (.digit '1') m := by
  simp only [Form.tokens, Base.tokens, Scripts.tokens, letters_tokens, digitTokens, List.flatMap_nil, growthCall,
    List.append_nil, List.cons_append, List.nil_append]

theorem growth_form_tokens (n : Nat) : ∀ m, 0 < m → (growthForm n m).tokens = growthCall growthToken m ++ growthRest n := by
  induction n with
  | zero =>
    intro m hm
    simp only [growthForm, Form.tokens, growthRest]
    have := growth_last (m + m)
    simp only [Form.tokens] at this
    rw [this, List.drop_eq_nil_of_le (by rw [growthCall_length]; omega)]
    simp only [List.flatMap_cons, List.flatMap_nil, letters_isEmpty hm, CallArg.tokens, growthCall, List.append_nil,
      List.cons_append]
  | succ n ih =>
    intro m hm
    simp only [growthForm, Form.tokens, growthRest, ih (m + m) (by omega)]
    rw [← growthCall_length growthToken (m + m), List.drop_left]
    simp only [List.flatMap_cons, List.flatMap_nil, letters_isEmpty hm, CallArg.tokens, growthCall, List.append_nil,
      List.cons_append, List.append_assoc, List.nil_append]

theorem growth_reads (n : Nat) : ∀ pos, Reads ((growthEnd pos n).map (tokOf plainParser growthStores))
    (growthRest n ++ [⟨.eoi, false⟩]) := by
  induction n with
  | zero => intro pos; exact .tok (.tok .nil)
  | succ n ih =>
    intro pos
    have h : tokOf plainParser growthStores (.commandName c!"d" ⟨pos, pos + 2⟩) = growthToken := by kernel_rfl
    simp only [growthEnd, List.map_cons, growthRest, h]
    exact .tok (ih _)

theorem growth_all (n : Nat) : Reads ((growthStart ++ growthEnd 25 n).map (tokOf plainParser growthStores))
    ((growthForm n 1).tokens ++ [⟨.eoi, false⟩]) := by
  rw [growth_form_tokens n 1 (by omega)]
  have h : growthStart.map (tokOf plainParser growthStores) = [growthToken, .groupBegin, ch 'x', .groupEnd] := by
    kernel_rfl
  rw [List.map_append, h]
  exact .tok (.tok (.tok (.tok (growth_reads n 25))))

theorem letters_ok (m : Nat) : (lettersForm m).ok false = true := by
  induction m with
  | zero => rfl
  | succ m ih =>
    simp only [lettersForm, Form.ok, Scripts.ok, ih, Base.ok, Bool.and_true]
    rfl

theorem letters_arg (m : Nat) : (CallArg.braces (growthLetters m)).ok = true := by
  have h : ∀ m, braceDepth 0 ((growthLetters m).map (·.tok)) = some 0 := by
    intro m
    induction m with
    | zero => rfl
    | succ m ih => exact ih
  simp only [CallArg.ok, h, Bool.and_eq_true, List.all_eq_true]
  refine ⟨fun x hx => ?_, rfl⟩
  rw [List.eq_of_mem_replicate hx]
  decide

theorem growth_ok (n : Nat) : ∀ m, 0 < m → (growthForm n m).ok false = true := by
  induction n with
  | zero =>
    intro m hm
    have := growth_last (m + m)
    simp only [growthForm, Form.ok, List.all_cons, letters_arg, this]
    rw [List.drop_eq_nil_of_le (by rw [growthCall_length]; omega)]
    simp only [Scripts.ok, Base.ok, letters_ok, Form.speaks, Form.tokens, Base.tokens, Scripts.tokens]
    rfl
  | succ n ih =>
    intro m hm
    simp only [growthForm, Form.ok, List.all_cons, letters_arg, growth_form_tokens n (m + m) (by omega),
      ih (m + m) (by omega)]
    rw [← growthCall_length growthToken (m + m), List.drop_left]
    cases n <;> rfl

theorem loosens_refl (ts : List Tk) : Loosens ts ts := by
  induction ts with
  | nil => exact .nil
  | cons t ts ih => exact .cons id ih

/-- The body of the macro -/
def growthPieces : List Piece := [.param 1, .tok .groupBegin, .param 0, .param 0, .tok .groupEnd]

theorem growth_expands {t : Token} (ht : t.unwrapMath = t) {m : Nat} (hm : 0 < m) :
    expandTks [.braces (growthLetters m), .tok t] false growthPieces = growthCall t (m + m) := by
  obtain ⟨k, rfl⟩ : ∃ k, m = k + 1 := ⟨m - 1, by omega⟩
  have h : growthLetters (k + 1 + (k + 1)) = growthLetters (k + 1) ++ growthLetters (k + 1) :=
    List.replicate_append_replicate.symm
  unfold growthCall
  rw [h]
  simp only [growthPieces, expandTks, growthLetters, List.replicate_succ]
  simp [CallArg.inner, Token.isWs, ht]

theorem growth_linked (n : Nat) : ∀ m, 0 < m → (growthForm n m).linked (macrosOf plainParser growthStores) := by
  have hM : macrosOf plainParser growthStores growthToken = some (2, growthPieces) := by kernel_rfl
  have hb : ∀ i, Piece.param i ∈ growthPieces → i < 9 := by
    intro i hi
    simp only [growthPieces, List.mem_cons, Piece.param.injEq, List.not_mem_nil, or_false, reduceCtorEq, false_or] at hi
    omega
  have hlet : ∀ m, (lettersForm m).linked (macrosOf plainParser growthStores) := by
    intro m
    induction m with
    | zero => trivial
    | succ m ih => exact ⟨trivial, trivial, ih⟩
  induction n with
  | zero =>
    intro m hm
    refine ⟨⟨growthPieces, hM, nofun, Nat.le_add_right 2 7, hb, ?_⟩, trivial, trivial, hlet _, trivial, trivial⟩
    rw [growth_last, growth_expands rfl hm, List.take_of_length_le (by rw [growthCall_length]; omega)]
    exact loosens_refl _
  | succ n ih =>
    intro m hm
    refine ⟨⟨growthPieces, hM, nofun, Nat.le_add_right 2 7, hb, ?_⟩, ih _ (by omega)⟩
    rw [growth_form_tokens n _ (by omega), growth_expands rfl hm, ← growthCall_length growthToken (m + m), List.take_left]
    exact loosens_refl _

/-- The letter -/
def growthLetter : Node := .identifierChar (SuperChar.fromChar 'x') .default

theorem letters_value (m : Nat) (l : Loc) : ∀ prev nxt,
    (lettersForm m).denote l prev nxt = .ok (List.replicate m growthLetter, l) := by
  induction m with
  | zero => intro prev nxt; rfl
  | succ m ih =>
    intro prev nxt
    simp only [lettersForm, Form.denote, Base.denote, Scripts.denote]
    simp only [bind, Except.bind, ih]
    rfl

theorem growth_value (n : Nat) : ∀ m l prev nxt, 0 < m → n + 1 ≤ l.left →
    ∃ l', (growthForm n m).denote l prev nxt =
      .ok ([.number c!"1", .row (List.replicate (2 ^ (n + 1) * m) growthLetter) {}], l') := by
  induction n with
  | zero =>
    intro m l prev nxt hm hl
    obtain ⟨left, hleft⟩ : ∃ k, l.left = k + 1 := ⟨l.left - 1, by omega⟩
    have hrow : nodeVecToNode (List.replicate (m + m) growthLetter) false =
        .row (List.replicate (2 ^ (0 + 1) * m) growthLetter) {} := by
      rw [show 2 ^ (0 + 1) * m = m + m from by omega]
      obtain ⟨k, hk⟩ : ∃ k, m + m = k + 2 := ⟨m + m - 2, by omega⟩
      rw [hk]
      rfl
    simp only [growthForm, Form.denote, expandOne, hleft]
    simp only [bind, Except.bind, Base.denote, Scripts.denote, letters_value, hrow]
    exact ⟨_, rfl⟩
  | succ n ih =>
    intro m l prev nxt hm hl
    obtain ⟨left, hleft⟩ : ∃ k, l.left = k + 1 := ⟨l.left - 1, by omega⟩
    obtain ⟨l', h⟩ := ih (m + m) { l with left := left } prev nxt (by omega) (by dsimp only; omega)
    refine ⟨l', ?_⟩
    simp only [growthForm, Form.denote, expandOne, hleft]
    simp only [bind, Except.bind]
    rw [h, show 2 ^ (n + 1) * (m + m) = 2 ^ (n + 1 + 1) * m from by rw [Nat.pow_succ 2 (n + 1), Nat.mul_assoc, Nat.two_mul]]

/-! ### The output -/

/-- The text which a source gives: `1` and a row of letters -/
def growthText (m : Nat) : Str :=
  c!"<math><mn>1</mn><mrow>" ++ (List.replicate m c!"<mi>x</mi>").flatten ++ c!"</mrow></math>"

theorem growthText_length (m : Nat) : m ≤ (growthText m).length := by
  have : (List.replicate m c!"<mi>x</mi>").flatten.length = 10 * m := by
    rw [List.length_flatten, List.map_replicate, List.sum_replicate_nat, Nat.mul_comm]
    rfl
  simp only [growthText, List.length_append, this]
  omega

theorem letters_emit (cfg : EmitCfg) (m : Nat) :
    (emitList cfg (List.replicate m growthLetter) 0).s = (List.replicate m c!"<mi>x</mi>").flatten := by
  induction m with
  | zero => simp only [List.replicate_zero, emitList]; rfl
  | succ m ih =>
    simp only [List.replicate_succ, emitList, List.flatten_cons, ← ih]
    rfl

/-- C46 does not hold: the source of length `2n + 26` gives a text with `2 ^ (n + 1)` letters, for every `n` which the
limit of expansions allows. With the default limit of 1000, a source of two thousand characters leads to more output than
any computer can hold. -/
theorem C46_output_grows (limit n : Nat) (h : n + 1 ≤ limit) :
    (growthSource n).length = 2 * n + 26 ∧
    Converts { plainConfig with maxExpansions := limit } (growthSource n) .inline (growthText (2 ^ (n + 1))) := by
  refine ⟨growthSource_length n, ?_⟩
  cases hc : Converter.new { plainConfig with maxExpansions := limit } with
  | error e =>
    exfalso
    have : ∀ limit, (Converter.new { plainConfig with maxExpansions := limit }).isOk = true := fun limit => by kernel_rfl
    have := this limit
    rw [hc] at this
    cases this
  | ok c =>
    have hp : ∀ limit, (match Converter.new { plainConfig with maxExpansions := limit } with
      | .ok c => some (c.parserCfg, c.emitterCfg)
      | .error _ => none) = some (⟨plainParser, limit⟩, ⟨.never, false, false, c!"unknown", .spaces 2, [], fun _ => []⟩) :=
      fun limit => by kernel_rfl
    have hp := hp limit
    rw [hc] at hp
    simp only [Option.some.injEq, Prod.mk.injEq] at hp
    have hcfg : c.parserCfg.toParserConfig = plainParser := by rw [hp.1]
    have hlim : c.parserCfg.maxExpansions = limit := by rw [hp.1]
    have hg := C10_definitions_local_partial (f := growthForm n 1) (st' := growthStores) c .inline
      (by rw [hcfg]; exact growth_begins n) (growth_ok n 1 (by omega)) (by rw [hcfg]; exact growth_linked n 1 (by omega))
      (by rw [hcfg]; exact growth_all n)
    obtain ⟨l', hv⟩ := growth_value n 1 ⟨.text, {}, ({} : GlobalState).equationCount,
      ({} : GlobalState).labelMap, limit, false⟩ .opening .ending (by omega) h
    unfold Form.value at hg
    rw [hlim, show MathDisplay.inline.style = Style.text from rfl] at hg
    rw [hv] at hg
    dsimp only at hg
    refine ⟨c, _, hc, hg, ?_⟩
    rw [hp.2, Nat.mul_one]
    simp only [growthText, ← letters_emit (EmitFlags.withLabels ⟨.never, false, false, c!"unknown", .spaces 2, [],
      fun _ => []⟩ l'.labels).emitter]
    have : ¬ (List.replicate (2 ^ (n + 1)) growthLetter).isEmpty = true := by
      have := Nat.one_le_two_pow (n := n + 1)
      obtain ⟨k, hk⟩ : ∃ k, 2 ^ (n + 1) = k + 1 := ⟨2 ^ (n + 1) - 1, by omega⟩
      rw [hk, List.replicate_succ]
      simp
    generalize List.replicate (2 ^ (n + 1)) growthLetter = nodes at this ⊢
    have key : ∀ a : Out, (if nodes.isEmpty then lit c!"</mrow>" else a) = a := fun a => if_neg this
    have hrow : ∀ cfg, (emit cfg (.row nodes {}) 0).s = c!"<mrow>" ++ ((emitList cfg nodes 0).s ++ c!"</mrow>") := by
      intro cfg
      simp only [emit, key]
      rfl
    have hdoc : ∀ cfg : EmitCfg, (emitList cfg [.number c!"1", .row nodes {}] 0).s =
        c!"<mn>1</mn>" ++ ((emit cfg (.row nodes {}) 0).s ++ []) := by
      intro cfg
      simp only [emitList]
      rfl
    refine (show _ = c!"<math>" ++ (emitList _ [.number c!"1", .row nodes {}] 0).s ++ c!"</math>" from rfl).trans ?_
    rw [hdoc, hrow, List.append_nil]
    simp only [List.append_assoc]
    rfl

/-- The source for `n = 3`, and the output for `n = 0` -/
example : growthSource 3 = c!"\\def\\d#1#2{#2{#1#1}}\\d{x}\\d\\d\\d1" ∧ 3 + 1 ≤ 1000 ∧
    growthText (2 ^ (0 + 1)) = c!"<math><mn>1</mn><mrow><mi>x</mi><mi>x</mi></mrow></math>" := by decide +kernel

/-! ### What is true of a single expansion -/

theorem argument_length (args : List (List QueuedTok)) (span : Span) (i : Nat) :
    (argument args span i).length ≤ 2 + args.flatten.length := by
  unfold argument
  split
  · rename_i t ts h
    obtain ⟨hi, h⟩ := List.getElem?_eq_some_iff.1 h
    have : (t :: ts).Sublist args.flatten := h ▸ List.sublist_flatten_of_mem (List.getElem_mem hi)
    have := this.length_le
    omega
  · simp only [List.length_cons, List.length_nil]; omega

theorem substituted_length (known : Str → Option Token) (args : List (List QueuedTok)) (span : Span) (r : RecordedToken) :
    (substituted known args span r).length ≤ 2 + args.flatten.length := by
  unfold substituted
  split
  · exact argument_length ..
  · simp only [List.length_cons, List.length_nil]; omega
  · split <;> simp only [List.length_cons, List.length_nil] <;> omega

theorem flatMap_length_le {α β} (f : α → List β) (k : Nat) (h : ∀ a, (f a).length ≤ k) (l : List α) :
    (l.flatMap f).length ≤ l.length * k := by
  induction l with
  | nil => simp
  | cons a l ih =>
    simp only [List.flatMap_cons, List.length_append, List.length_cons, Nat.succ_mul]
    have := h a
    omega

/-- C46, for a single expansion: the call and its arguments are replaced by a number of tokens which is at most the
product of the size of the body and the size of the arguments (where an empty body or argument counts as one or two
tokens); nothing else is added to what is still to be read.
What is missing: such a bound for all the expansions of a source together; by `C46_output_grows` there is none which is
better than exponential. -/
theorem C46_one_expansion_partial {cfg : ParserConfig} {numArgs : Nat} {body : List RecordedToken} {span : Span}
    {s s' : PState} (h : Expanded cfg numArgs body span s s') :
    ∃ args rest new, ArgsAt numArgs (upcoming cfg s.q) args rest ∧
      upcoming cfg s'.q = rest.push new ∧
      new.length ≤ max 1 body.length * (2 + args.flatten.length) := by
  obtain ⟨args, rest, h1, h2⟩ := h.tokens
  refine ⟨args, rest, _, h1, h2, ?_⟩
  cases body with
  | nil =>
    have : 1 * (2 + args.flatten.length) = 2 + args.flatten.length := Nat.one_mul _
    simp only [expansion, List.length_cons, List.length_nil, Nat.max_eq_left, Nat.zero_le, this]
    omega
  | cons r body =>
    have := flatMap_length_le (substituted (s.q.stores.resolveCommand cfg.builtin) args span) _
      (substituted_length _ args span) (r :: body)
    rw [Nat.max_eq_right (by simp)]
    exact this

end Verif

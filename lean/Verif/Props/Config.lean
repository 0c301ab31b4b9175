import Verif.Spec.Config
import Verif.Props.Lexing
import Verif.Lemmas.Lexer
/-! Property C16: the macros of a configuration. -/
namespace Verif
open Model Spec Lexer'

theorem isValidMacroName_iff (s : Str) : isValidMacroName s = true ↔ ValidName s := by
  unfold isValidMacroName ValidName
  cases s with
  | nil => simp
  | cons c s => simp

/-- The names in a definition which are not built in -/
def unresolvedOf (builtin : Str → Option Token) : LexerOutput → Option (Str × Span)
  | .commandName n span => if (builtin n).isSome then none else some (n, span)
  | _ => none

theorem macroBodyLoop_spec (builtin : Str → Option Token) (fuel : Nat) (l : Lexer) (acc : MacroBody)
    (hf : l.rest.length < fuel) :
    macroBodyLoop builtin fuel l acc =
      match readTokens fuel l with
      | (_, some e) => .error e
      | (outs, none) => .ok ⟨acc.body ++ outs.filterMap bodyItem,
          (outs.map paramsNeeded).foldl max acc.numArgs,
          acc.firstClass.or (outs.findSome? (classOf builtin)),
          acc.unresolved ++ outs.filterMap (unresolvedOf builtin)⟩ := by
  induction fuel generalizing l acc with
  | zero => omega
  | succ fuel ih =>
    unfold macroBodyLoop readTokens
    cases h : l.nextToken with
    | error e => rfl
    | ok r =>
      obtain ⟨out, l'⟩ := r
      have hlen : isEoi out = false → l'.rest.length < fuel := by
        intro he
        obtain ⟨gap, text, after, hk⟩ := nextToken_ok h
        have ht' : 0 < text.length := List.length_pos_iff.2 (hk.progress he)
        have := congrArg List.length hk.rest
        simp only [List.length_append] at this
        omega
      cases out with
      | commandName n span =>
        simp only [isEoi, Bool.false_eq_true, if_false]
        have hl := hlen rfl
        cases hb : builtin n with
        | some tok =>
          simp only
          rw [ih l' _ hl]
          obtain ⟨outs, e⟩ := readTokens fuel l'
          cases e with
          | some e => rfl
          | none =>
            have h2 : unresolvedOf builtin (.commandName n span) = none := by simp [unresolvedOf, hb]
            have h3 : classOf builtin (.commandName n span) = tok.cls := by simp [classOf, hb]
            simp only [List.filterMap_cons, bodyItem, List.map_cons, paramsNeeded, List.foldl_cons,
              Nat.max_zero, List.append_assoc, List.singleton_append, List.findSome?_cons, h2, h3,
              Option.or_assoc]
            congr 3
            cases tok.cls <;> rfl
        | none =>
          simp only
          rw [ih l' _ hl]
          obtain ⟨outs, e⟩ := readTokens fuel l'
          cases e with
          | some e => rfl
          | none =>
            have h2 : unresolvedOf builtin (.commandName n span) = some (n, span) := by simp [unresolvedOf, hb]
            have h3 : classOf builtin (.commandName n span) = none := by simp [classOf, hb]
            simp only [List.filterMap_cons, bodyItem, List.map_cons, paramsNeeded, List.foldl_cons,
              Nat.max_zero, List.append_assoc, List.singleton_append, List.findSome?_cons, h2, h3]
      | token t =>
        obtain ⟨tok, span⟩ := t
        cases tok with
        | eoi =>
          have h1 : [LexerOutput.token ⟨.eoi, span⟩].filterMap bodyItem = [] := rfl
          have h2 : [LexerOutput.token ⟨.eoi, span⟩].filterMap (unresolvedOf builtin) = [] := rfl
          simp [isEoi, paramsNeeded, classOf, h1, h2]
        | customCmdArgInput n =>
          simp only [isEoi, Bool.false_eq_true, if_false]
          rw [ih l' _ (hlen rfl)]
          obtain ⟨outs, e⟩ := readTokens fuel l'
          cases e with
          | some e => rfl
          | none =>
            simp only [List.filterMap_cons, bodyItem, List.map_cons, paramsNeeded, List.foldl_cons,
              List.append_assoc, List.singleton_append, List.findSome?_cons, classOf, unresolvedOf]
        | _ =>
          simp only [isEoi, Bool.false_eq_true, if_false]
          rw [ih l' _ (hlen rfl)]
          obtain ⟨outs, e⟩ := readTokens fuel l'
          cases e with
          | some e => rfl
          | none =>
            simp only [List.filterMap_cons, bodyItem, List.map_cons, paramsNeeded, List.foldl_cons,
              Nat.max_zero, List.append_assoc, List.singleton_append, List.findSome?_cons, classOf, unresolvedOf,
              Option.or_assoc]
            congr 3
            try (generalize Token.cls _ = c; cases c <;> rfl)

theorem macroBody_spec (builtin : Str → Option Token) (text : Str) :
    macroBody builtin text =
      match (tokensOf text).2 with
      | some e => .error e
      | none => .ok ⟨(macroMeaning builtin text).body, (macroMeaning builtin text).numArgs,
          (macroMeaning builtin text).cls, (tokensOf text).1.filterMap (unresolvedOf builtin)⟩ := by
  unfold macroBody
  rw [macroBodyLoop_spec _ _ _ _ (by simp [Lexer.new])]
  unfold macroMeaning tokensOf
  obtain ⟨outs, e⟩ := readTokens (text.length + 1) (Lexer.new text)
  cases e <;> simp

/-- What `readMacros` has put into the store: the first macro with a name counts. -/
theorem storedMeaning_insert (c : CustomCmds) (name : Str) (m : MacroBody) (name' : Str)
    (hc : ∀ n d, c.map.get n = some d → d.start ≤ d.stop ∧ d.stop ≤ c.tokens.length) :
    storedMeaning (c.insert name m.numArgs m.body m.firstClass).2 name' =
      (if name' = name then (storedMeaning c name).or (some ⟨m.numArgs, m.firstClass, m.body⟩)
       else storedMeaning c name') ∧
    (∀ n d, (c.insert name m.numArgs m.body m.firstClass).2.map.get n = some d →
      d.start ≤ d.stop ∧ d.stop ≤ (c.insert name m.numArgs m.body m.firstClass).2.tokens.length) ∧
    (∀ n, ((c.insert name m.numArgs m.body m.firstClass).2.map.get n).isSome =
      ((c.map.get n).isSome || n == name)) := by
  have hbody : ∀ n d, c.map.get n = some d →
      (c.body d.start d.stop).isSome := by
    intro n d h
    unfold CustomCmds.body sliceGet
    rw [if_pos (hc n d h)]; rfl
  unfold CustomCmds.insert
  cases hcon : c.map.contains name with
  | true =>
    simp only [if_true]
    have hs : (c.map.get name).isSome := hcon
    refine ⟨?_, hc, ?_⟩
    · split
      · rename_i h
        subst h
        obtain ⟨d, hd⟩ := Option.isSome_iff_exists.1 hs
        obtain ⟨b, hb⟩ := Option.isSome_iff_exists.1 (hbody _ d hd)
        unfold storedMeaning
        rw [hd]; simp [hb]
      · rfl
    · intro n
      by_cases h : n = name
      · subst h; rw [hs]; rfl
      · rw [show (n == name) = false by simpa using h]; simp
  | false =>
    simp only [Bool.false_eq_true, if_false]
    have hget : ∀ n, (StrMap.insert c.map name (⟨m.numArgs, m.firstClass, c.tokens.length,
        (c.tokens ++ m.body).length⟩ : CmdDef)).get n =
        if n = name then some ⟨m.numArgs, m.firstClass, c.tokens.length, (c.tokens ++ m.body).length⟩
        else c.map.get n := by
      intro n
      unfold StrMap.get StrMap.insert
      rw [List.lookup_cons]
      by_cases h : n = name
      · subst h; simp
      · rw [show (n == name) = false by simpa using h, if_neg h]
    have hnone : c.map.get name = none := by
      cases hh : c.map.get name with
      | none => rfl
      | some d => unfold StrMap.contains at hcon; rw [hh] at hcon; cases hcon
    unfold CustomCmds.insertOrReplace CustomCmds.register
    simp only
    refine ⟨?_, ?_, ?_⟩
    · unfold storedMeaning
      simp only [hget]
      split
      · rename_i h
        subst h
        rw [hnone]
        simp only [Option.bind_some, Option.bind_none, Option.none_or]
        unfold CustomCmds.body sliceGet
        rw [if_pos (by simp)]
        simp
      · cases hd : c.map.get name' with
        | none => rfl
        | some d =>
          simp only [Option.bind_some]
          unfold CustomCmds.body sliceGet
          have := hc name' d hd
          rw [if_pos this, if_pos (by simp; omega)]
          simp only [Option.map_some]
          congr 2
          rw [List.drop_append_of_le_length (by omega), List.take_append_of_le_length (by simp; omega)]
    · intro n d h
      rw [hget] at h
      split at h
      · cases h; simp
      · have := hc n d h
        refine ⟨this.1, ?_⟩
        rw [List.length_append]; omega
    · intro n
      rw [hget]
      split
      · rename_i h; subst h; simp
      · rename_i h; rw [show (n == name) = false by simpa using h]; simp

/-- A well-formed store -/
def StoreOk (c : CustomCmds) : Prop :=
  ∀ n d, c.map.get n = some d → d.start ≤ d.stop ∧ d.stop ≤ c.tokens.length

/-- The meaning which the macros give to a name, if they are read after those of the store -/
def meaningAfter (builtin : Str → Option Token) (c : CustomCmds) (macros : List (Str × Str)) (name : Str) :
    Option MacroMeaning :=
  (storedMeaning c name).or ((macros.lookup name).map (macroMeaning builtin))

theorem readMacros_spec (builtin : Str → Option Token) (idx : Nat) (macros : List (Str × Str))
    (c : CustomCmds) (un : List (Nat × Str × Span)) (hc : StoreOk c) :
    match readMacros builtin idx macros c un with
    | .ok (c', un') => (∀ m ∈ macros, ValidName m.1 ∧ (tokensOf m.2).2 = none) ∧ StoreOk c' ∧
        (∀ n, storedMeaning c' n = meaningAfter builtin c macros n) ∧
        (∀ n, (c'.map.get n).isSome = ((c.map.get n).isSome || (macros.map (·.1)).contains n)) ∧
        (∀ i n s, (i, n, s) ∈ un' ↔ (i, n, s) ∈ un ∨ ∃ j name text, i = idx + j ∧
          macros[j]? = some (name, text) ∧ LexerOutput.commandName n s ∈ (tokensOf text).1 ∧ builtin n = none)
    | .error (e, i, text) => ∃ j name, i = idx + j ∧ macros[j]? = some (name, text) ∧
        ((¬ ValidName name ∧ e = ⟨0, 0, .invalidMacroName name⟩) ∨ (tokensOf text).2 = some e) := by
  induction macros generalizing idx c un with
  | nil =>
    unfold readMacros
    refine ⟨by simp, hc, ?_, by simp, by simp⟩
    intro n; simp [meaningAfter]
  | cons m rest ih =>
    obtain ⟨name, text⟩ := m
    unfold readMacros
    by_cases hv : isValidMacroName name = true
    · rw [hv]
      simp only [Bool.not_true, Bool.false_eq_true, if_false]
      have hmb := macroBody_spec builtin text
      cases ht : (tokensOf text).2 with
      | some e =>
        rw [ht] at hmb
        rw [hmb]
        exact ⟨0, name, rfl, rfl, Or.inr ht⟩
      | none =>
        rw [ht] at hmb
        simp only at hmb
        revert hmb
        generalize hm : (⟨(macroMeaning builtin text).body, (macroMeaning builtin text).numArgs,
          (macroMeaning builtin text).cls, (tokensOf text).1.filterMap (unresolvedOf builtin)⟩ : MacroBody) = m
        intro hmb
        rw [hmb]
        simp only
        have h0 := storedMeaning_insert c name m
        have h1 : StoreOk (c.insert name m.numArgs m.body m.firstClass).2 := (h0 name hc).2.1
        have h3 := (h0 name hc).2.2
        have := ih (idx + 1) (c.insert name m.numArgs m.body m.firstClass).2
          (un ++ m.unresolved.map fun (n, s) => (idx, n, s)) h1
        revert this
        generalize readMacros builtin (idx + 1) rest (c.insert name m.numArgs m.body m.firstClass).2
          (un ++ m.unresolved.map fun (n, s) => (idx, n, s)) = res
        cases res with
        | error r =>
          obtain ⟨e, i, t⟩ := r
          rintro ⟨j, nm, rfl, k2, k3⟩
          exact ⟨j + 1, nm, by omega, k2, k3⟩
        | ok r =>
          obtain ⟨c', un'⟩ := r
          rintro ⟨k1, k2, k3, k4, k5⟩
          refine ⟨?_, k2, ?_, ?_, ?_⟩
          · intro x hx
            rcases List.mem_cons.1 hx with rfl | hx
            · exact ⟨(isValidMacroName_iff _).1 hv, ht⟩
            · exact k1 x hx
          · intro n
            rw [k3 n]
            unfold meaningAfter
            rw [(h0 n hc).1, List.lookup_cons]
            by_cases hn : n = name
            · subst hn
              simp only [if_true, beq_self_eq_true]
              rw [← hm]
              simp only [Option.map_some]
              cases storedMeaning c n <;> rfl
            · rw [if_neg hn, show (n == name) = false by simpa using hn]
          · intro n
            rw [k4 n, h3 n, List.map_cons, List.contains_cons, Bool.or_assoc]
          · intro i n s
            rw [k5 i n s, List.mem_append, or_assoc]
            apply or_congr_right
            have hun : (i, n, s) ∈ m.unresolved.map (fun (n, s) => (idx, n, s)) ↔
                i = idx ∧ LexerOutput.commandName n s ∈ (tokensOf text).1 ∧ builtin n = none := by
              rw [← hm]
              simp only [List.mem_map, List.mem_filterMap]
              constructor
              · rintro ⟨⟨n', s'⟩, ⟨o, ho, hu⟩, heq⟩
                cases heq
                cases o with
                | token t => cases hu
                | commandName n0 s0 =>
                  cases hb : builtin n0 with
                  | some t => simp [unresolvedOf, hb] at hu
                  | none =>
                    simp only [unresolvedOf, hb, Option.isSome_none, Bool.false_eq_true, if_false, Option.some.injEq,
                      Prod.mk.injEq] at hu
                    obtain ⟨rfl, rfl⟩ := hu
                    exact ⟨rfl, ho, hb⟩
              · rintro ⟨rfl, ho, hb⟩
                exact ⟨(n, s), ⟨_, ho, by simp [unresolvedOf, hb]⟩, rfl⟩
            rw [hun]
            constructor
            · rintro (⟨rfl, ho, hb⟩ | ⟨j, nm, t, rfl, hj, ho, hb⟩)
              · exact ⟨0, name, text, rfl, rfl, ho, hb⟩
              · exact ⟨j + 1, nm, t, by omega, hj, ho, hb⟩
            · rintro ⟨j, nm, t, rfl, hj, ho, hb⟩
              cases j with
              | zero => simp at hj; obtain ⟨rfl, rfl⟩ := hj; exact Or.inl ⟨rfl, ho, hb⟩
              | succ j => exact Or.inr ⟨j, nm, t, by omega, by simpa using hj, ho, hb⟩
    · have hv' : isValidMacroName name = false := by simpa using hv
      rw [hv']
      simp only [Bool.not_false, if_true]
      exact ⟨0, name, rfl, rfl, Or.inl ⟨fun h => hv ((isValidMacroName_iff _).2 h), rfl⟩⟩

theorem firstUndefined_spec (c : CustomCmds) (l : List (Nat × Str × Span)) :
    match firstUndefined c l with
    | some (i, n, s) => (i, n, s) ∈ l ∧ (c.map.get n).isSome = false
    | none => ∀ i n s, (i, n, s) ∈ l → (c.map.get n).isSome = true := by
  have hget : ∀ n, (c.get n .config).isNone = (c.map.get n).isNone := by
    intro n; unfold CustomCmds.get; cases c.map.get n <;> rfl
  induction l with
  | nil => simp [firstUndefined]
  | cons x l ih =>
    obtain ⟨i, n, s⟩ := x
    unfold firstUndefined
    rw [hget]
    by_cases h : (c.map.get n).isNone = true
    · rw [if_pos h]
      exact ⟨by simp, by simpa using h⟩
    · rw [if_neg h]
      revert ih
      cases firstUndefined c l with
      | some x => obtain ⟨i', n', s'⟩ := x; rintro ⟨k1, k2⟩; exact ⟨by simp [k1], k2⟩
      | none =>
        intro ih i' n' s' hm
        rcases List.mem_cons.1 hm with heq | hm
        · cases heq
          cases hh : c.map.get n with
          | none => rw [hh] at h; simp at h
          | some d => rfl
        · exact ih i' n' s' hm

/-- Everything about the macros of a configuration -/
theorem parseCustomCommands_spec (macros : List (Str × Str)) (uni : UnicodeSubstitution) (unrel : Bool) :
    match parseCustomCommands macros uni unrel with
    | .ok c => (∀ m ∈ macros, MacroOk (resolveBuiltinCmd unrel uni) (macros.map (·.1)) m.1 m.2) ∧
        ∀ n, storedMeaning c n = (macros.lookup n).map (macroMeaning (resolveBuiltinCmd unrel uni))
    | .error (e, i, text) => ∃ name, macros[i]? = some (name, text) ∧
        MacroBad (resolveBuiltinCmd unrel uni) (macros.map (·.1)) name text e := by
  unfold parseCustomCommands
  have h := readMacros_spec (resolveBuiltinCmd unrel uni) 0 macros {} [] (by intro n d hd; cases hd)
  revert h
  cases readMacros (resolveBuiltinCmd unrel uni) 0 macros {} [] with
  | error r =>
    obtain ⟨e, i, text⟩ := r
    rintro ⟨j, name, rfl, h2, h3⟩
    refine ⟨name, by simpa using h2, ?_⟩
    rcases h3 with ⟨h3, rfl⟩ | h3
    · exact .name h3
    · exact .tokens h3
  | ok r =>
    obtain ⟨c, un⟩ := r
    rintro ⟨h1, h2, h3, h4, h5⟩
    have hf := firstUndefined_spec c un
    have h4' : ∀ n, (c.map.get n).isSome = (macros.map (·.1)).contains n := by
      intro n; rw [h4 n]; rfl
    simp only
    revert hf
    cases firstUndefined c un with
    | some x =>
      obtain ⟨i, n, s⟩ := x
      rintro ⟨k1, k2⟩
      obtain (k1 | ⟨j, name, text, rfl, hj, ho, hb⟩) := (h5 i n s).1 k1
      · cases k1
      · rw [Nat.zero_add]
        refine ⟨name, ?_, .unknown ?_ hb ?_⟩
        · rw [hj]; rfl
        · rw [hj]; exact ho
        · rw [h4'] at k2
          intro hmem
          rw [List.contains_iff_mem.2 hmem] at k2
          cases k2
    | none =>
      intro hf
      refine ⟨?_, ?_⟩
      · intro m hm
        obtain ⟨k1, k2⟩ := h1 m hm
        refine ⟨k1, k2, ?_⟩
        intro n span ho
        cases hb : resolveBuiltinCmd unrel uni n with
        | some t => exact Or.inl rfl
        | none =>
          right
          obtain ⟨j, hj, hjm⟩ := List.getElem_of_mem hm
          have := hf j n span ((h5 j n span).2 (Or.inr ⟨j, m.1, m.2, by omega,
            by rw [List.getElem?_eq_getElem hj, hjm], ho, hb⟩))
          rw [h4'] at this
          exact List.contains_iff_mem.1 this
      · intro n
        rw [h3 n]; rfl

/-- The built-in commands of a configuration -/
def builtinOf (config : MathCoreConfig) : Str → Option Token :=
  resolveBuiltinCmd config.allowUnreliableRendering config.unicodeSubstitution

/-- The names of the configured macros -/
def macroNames (config : MathCoreConfig) : List Str := config.macros.map (·.1)

theorem MacroBad.not_ok {builtin names name text e} (h : MacroBad builtin names name text e) :
    ¬ MacroOk builtin names name text := by
  intro ok
  cases h with
  | name h => exact h ok.name
  | tokens h => rw [ok.tokens] at h; cases h
  | unknown h1 h2 h3 =>
    rcases ok.known _ _ h1 with h | h
    · rw [h2] at h; cases h
    · exact h3 h

/-- C16. An error about the macros names the index and the definition of a macro for which it is true. -/
theorem C16_error (config : MathCoreConfig) (e : LatexError) (i : Nat) (text : Str)
    (h : Converter.new config = .error (e, i, text)) :
    ∃ name, config.macros[i]? = some (name, text) ∧
      MacroBad (builtinOf config) (macroNames config) name text e := by
  have hs := parseCustomCommands_spec config.macros config.unicodeSubstitution config.allowUnreliableRendering
  unfold Converter.new at h
  revert h hs
  cases parseCustomCommands config.macros config.unicodeSubstitution config.allowUnreliableRendering with
  | error r => intro h hs; cases h; exact hs
  | ok c => intro h; cases h

/-- C16. Creating a converter succeeds exactly if every macro can be used. -/
theorem C16_iff (config : MathCoreConfig) :
    (∃ c, Converter.new config = .ok c) ↔
      ∀ m ∈ config.macros, MacroOk (builtinOf config) (macroNames config) m.1 m.2 := by
  constructor
  · rintro ⟨c, h⟩
    have hs := parseCustomCommands_spec config.macros config.unicodeSubstitution
      config.allowUnreliableRendering
    unfold Converter.new at h
    revert h hs
    cases parseCustomCommands config.macros config.unicodeSubstitution config.allowUnreliableRendering with
    | error r => intro h; cases h
    | ok c => intro _ hs; exact hs.1
  · intro hall
    cases h : Converter.new config with
    | ok c => exact ⟨c, rfl⟩
    | error r =>
      obtain ⟨e, i, text⟩ := r
      obtain ⟨name, h1, h2⟩ := C16_error config e i text h
      exact absurd (hall (name, text) (List.mem_of_getElem? h1)) (MacroBad.not_ok h2)

/-- C16. What the macros of a new converter mean: a name means what the first macro with that name says. -/
theorem C16_meaning (config : MathCoreConfig) (c : Converter) (h : Converter.new config = .ok c) (name : Str) :
    storedMeaning c.parserCfg.customCmds name =
      (config.macros.lookup name).map (macroMeaning (builtinOf config)) := by
  have hs := parseCustomCommands_spec config.macros config.unicodeSubstitution config.allowUnreliableRendering
  unfold Converter.new at h
  revert h hs
  cases parseCustomCommands config.macros config.unicodeSubstitution config.allowUnreliableRendering with
  | error r => intro h; cases h
  | ok cmds => intro h hs; cases h; exact hs.2 name

theorem lookup_perm {l l' : List (Str × Str)} (hp : l.Perm l') (hn : (l.map (·.1)).Nodup) (k : Str) :
    l.lookup k = l'.lookup k := by
  induction hp with
  | nil => rfl
  | cons x _ ih =>
    obtain ⟨a, b⟩ := x
    rw [List.map_cons, List.nodup_cons] at hn
    rw [List.lookup_cons, List.lookup_cons, ih hn.2]
  | swap x y l =>
    obtain ⟨a, b⟩ := x
    obtain ⟨a', b'⟩ := y
    simp only [List.map_cons, List.nodup_cons, List.mem_cons, not_or] at hn
    simp only [List.lookup_cons]
    by_cases h1 : k = a
    · by_cases h2 : k = a'
      · exact absurd (h2.symm.trans h1) hn.1.1
      · rw [show (k == a') = false by simpa using h2]
    · rw [show (k == a) = false by simpa using h1]
  | trans h1 _ ih1 ih2 => rw [ih1 hn, ih2 ((h1.map _).nodup_iff.1 hn)]

/-- The configuration with other macros -/
def withMacros (config : MathCoreConfig) (macros : List (Str × Str)) : MathCoreConfig :=
  { config with macros }

/-- C16. If the names are different, the order of the macros does not matter, neither for whether the
converter can be created nor for what the macros mean. -/
theorem C16_order (config : MathCoreConfig) (macros' : List (Str × Str)) (hp : config.macros.Perm macros')
    (hn : (config.macros.map (·.1)).Nodup) :
    ((∃ c, Converter.new config = .ok c) ↔ ∃ c, Converter.new (withMacros config macros') = .ok c) ∧
    ∀ c c', Converter.new config = .ok c → Converter.new (withMacros config macros') = .ok c' →
      ∀ name, storedMeaning c.parserCfg.customCmds name = storedMeaning c'.parserCfg.customCmds name := by
  have hnames : ∀ n, n ∈ macroNames config ↔ n ∈ macroNames (withMacros config macros') := by
    intro n; unfold macroNames withMacros; exact (hp.map _).mem_iff
  constructor
  · rw [C16_iff, C16_iff]
    constructor
    · intro h m hm
      have := h m (hp.mem_iff.2 hm)
      exact ⟨this.name, this.tokens, fun n s ho => (this.known n s ho).imp id (hnames n).1⟩
    · intro h m hm
      have := h m (hp.mem_iff.1 hm)
      exact ⟨this.name, this.tokens, fun n s ho => (this.known n s ho).imp id (hnames n).2⟩
  · intro c c' h h' name
    rw [C16_meaning config c h, C16_meaning _ c' h']
    have : (withMacros config macros').macros = macros' := rfl
    rw [this, lookup_perm hp hn]
    rfl

/-- C16. If two macros have the same name, there is no error: the first one silently wins. -/
theorem C16_duplicate (config : MathCoreConfig) (name a b : Str) (h : config.macros = [(name, a), (name, b)])
    (c : Converter) (hc : Converter.new config = .ok c) :
    storedMeaning c.parserCfg.customCmds name = some (macroMeaning (builtinOf config) a) := by
  rw [C16_meaning config c hc, h, List.lookup_cons]
  simp

/-- A configuration whose macros refer to each other, in an order which does not matter -/
def exampleMacros : MathCoreConfig :=
  { macros := [(c!"two", c!"\\one{#1}+\\one{#2}"), (c!"one", c!"\\frac{#1}{2}"), (c!"é", c!"x")],
    unknownClass := c!"unknown", indentation := .spaces 2, fmt := fun _ => [] }

example : (match Converter.new exampleMacros with
    | .ok c => (storedMeaning c.parserCfg.customCmds c!"two").map (·.numArgs)
    | .error _ => none) = some 2 := by decide +kernel

example : (match Converter.new (withMacros exampleMacros [(c!"a", c!"1"), (c!"b", c!"\\a \\nope")]) with
    | .ok _ => none
    | .error (e, i, text) => some (e, i, text)) =
    some (⟨3, 8, .unknownCommand c!"nope"⟩, 1, c!"\\a \\nope") := by decide +kernel

end Verif

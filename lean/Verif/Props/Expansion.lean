import Verif.Lemmas.Expansion
import Verif.Props.Groups
import Verif.Props.Queue
import Verif.Lemmas.Weights
/-! C14: what the expansion of a macro does. -/
namespace Verif
open Model Spec Lexer' TokenQueue
variable {cfg : ParserConfig}

theorem flatMap_congr {α β} {l : List α} {f g : α → List β} (h : ∀ a ∈ l, f a = g a) : l.flatMap f = l.flatMap g := by
  induction l with
  | nil => rfl
  | cons a l ih => rw [List.flatMap_cons, List.flatMap_cons, h a (by simp), ih fun a ha => h a (by simp [ha])]

theorem substRecorded_eq {stores a args} (h : Holds a args) (span : Span) {r : RecordedToken}
    (hr : ∀ i, r = .token (.customCmdArg i) → i < 9) :
    substRecorded cfg stores a span r = substituted (stores.resolveCommand cfg.builtin) args span r := by
  unfold substRecorded substituted
  cases r with
  | commandName name => rfl
  | token t =>
    cases t with
    | customCmdArg i => exact argTokens_eq h (hr i rfl) span
    | _ => rfl

theorem substToken_eq {known a args} (h : Holds a args) (span : Span) {t : Token}
    (hr : ∀ i, t = .customCmdArg i → i < 9) :
    substToken a span t = substituted known args span (.token t) := by
  unfold substToken substituted
  cases t with
  | customCmdArg i => exact argTokens_eq h (hr i rfl) span
  | _ => rfl

/-- The state after a call: one expansion less is left, the call is replaced, everything else is as before. -/
structure Expanded (cfg : ParserConfig) (numArgs : Nat) (body : List RecordedToken) (span : Span) (s s' : PState) :
    Prop where
  tokens : ∃ args rest, ArgsAt numArgs (upcoming cfg s.q) args rest ∧
    upcoming cfg s'.q = rest.push (expansion (s.q.stores.resolveCommand cfg.builtin) args span body)
  left : s'.expansionsLeft + 1 = s.expansionsLeft
  stores : s'.q.stores = s.q.stores
  count : s'.q.equationCount = s.q.equationCount
  labels : s'.q.labelMap = s.q.labelMap
  transform : s'.transform = s.transform
  rightBoundaryHack : s'.rightBoundaryHack = s.rightBoundaryHack
  env : s'.env = s.env
  style : s'.style = s.style
  verticalLineDef : s'.verticalLineDef = s.verticalLineDef
  queue : QInv s'.q

/-- C14. Expanding a call of a macro which is stored with the body `body`, in any state of the parser, succeeds exactly
if there is an expansion left and its arguments are there. Then the call is replaced by the body, in which `#i` is
replaced by the tokens of the `i`-th argument. What comes after the arguments is untouched, and so are the definitions,
the numbers, the labels, the environment and the style. -/
theorem C14_expansion (s : PState) (hq : QInv s.q) (source : CmdSource) (numArgs start stop : Nat) (span : Span)
    (body : List RecordedToken) (hb : s.q.stores.getBody source start stop = some body) (hp : ParamsOk numArgs body) :
    (s.expansionsLeft = 0 ∧ expandCustomCmdRef source numArgs start stop span cfg s =
      .err (span.err .tooManyExpansions) s) ∨
    (0 < s.expansionsLeft ∧ ∃ s', expandCustomCmdRef source numArgs start stop span cfg s = .ok .expansion s' ∧
      Expanded cfg numArgs body span s s') ∨
    (0 < s.expansionsLeft ∧ ∃ e s', expandCustomCmdRef source numArgs start stop span cfg s = .err e s' ∧
      ArgsFail cfg numArgs (upcoming cfg s.q) e) := by
  unfold expandCustomCmdRef countExpansion
  cases hl : s.expansionsLeft with
  | zero =>
    refine Or.inl ⟨rfl, ?_⟩
    simp only [bind, St.bind, St.get, hl]
    rfl
  | succ left =>
    refine Or.inr ?_
    simp only [bind, St.bind, St.get, hl, St.modify, readCmdArgs]
    rcases readCmdArgsFrom_spec (cfg := cfg) numArgs
      (s := { s with expansionsLeft := left, cmdArgs := s.cmdArgs.clear }) (args := []) hq (Holds.clear s.cmdArgs)
      (by simpa using hp.1) with ⟨args, q1, a1, h1, h2, h3, h4, h5⟩ | ⟨e, s1, h1, h2⟩
    · refine Or.inl ⟨by omega, ?_⟩
      simp only [List.length_nil] at h1
      rw [h1]
      simp only [St.config, queueStoredBodySubstituting, h3.stores, hb]
      rw [List.nil_append] at h5
      cases body with
      | nil =>
        refine ⟨_, rfl, ⟨⟨args, _, h4, ?_⟩, by simp [hl], h3.stores, h3.count, h3.labels, rfl, rfl, rfl, rfl, rfl,
          h2.push _⟩⟩
        exact upcoming_push _
      | cons r body =>
        refine ⟨_, rfl, ⟨⟨args, _, h4, ?_⟩, by simp [hl], h3.stores, h3.count, h3.labels, rfl, rfl, rfl, rfl, rfl,
          h2.push _⟩⟩
        refine (upcoming_push _).trans ?_
        congr 1
        refine flatMap_congr fun x hx => substRecorded_eq h5 span fun i hi => ?_
        exact hp.2 i (hi ▸ hx)
    · refine Or.inr ⟨by omega, e, s1, ?_, h2⟩
      simp only [List.length_nil] at h1
      rw [h1]

/-- C14. The same for a built-in macro, like `\pmod`. -/
theorem C14_expansion_builtin (s : PState) (hq : QInv s.q) (numArgs : Nat) (span : Span) (body : List Token)
    (hp : ParamsOk numArgs (body.map .token)) :
    (s.expansionsLeft = 0 ∧ expandCustomCmd numArgs body span cfg s = .err (span.err .tooManyExpansions) s) ∨
    (0 < s.expansionsLeft ∧ ∃ s', expandCustomCmd numArgs body span cfg s = .ok .expansion s' ∧
      Expanded cfg numArgs (body.map .token) span s s') ∨
    (0 < s.expansionsLeft ∧ ∃ e s', expandCustomCmd numArgs body span cfg s = .err e s' ∧
      ArgsFail cfg numArgs (upcoming cfg s.q) e) := by
  unfold expandCustomCmd countExpansion
  cases hl : s.expansionsLeft with
  | zero =>
    refine Or.inl ⟨rfl, ?_⟩
    simp only [bind, St.bind, St.get, hl]
    rfl
  | succ left =>
    refine Or.inr ?_
    simp only [bind, St.bind, St.get, hl, St.modify, readCmdArgs]
    rcases readCmdArgsFrom_spec (cfg := cfg) numArgs
      (s := { s with expansionsLeft := left, cmdArgs := s.cmdArgs.clear }) (args := []) hq (Holds.clear s.cmdArgs)
      (by simpa using hp.1) with ⟨args, q1, a1, h1, h2, h3, h4, h5⟩ | ⟨e, s1, h1, h2⟩
    · refine Or.inl ⟨by omega, ?_⟩
      simp only [List.length_nil] at h1
      rw [h1]
      simp only [queueBodySubstituting]
      rw [List.nil_append] at h5
      cases body with
      | nil =>
        refine ⟨_, rfl, ⟨⟨args, _, h4, ?_⟩, by simp [hl], h3.stores, h3.count, h3.labels, rfl, rfl, rfl, rfl, rfl,
          h2.push _⟩⟩
        exact upcoming_push _
      | cons r body =>
        refine ⟨_, rfl, ⟨⟨args, _, h4, ?_⟩, by simp [hl], h3.stores, h3.count, h3.labels, rfl, rfl, rfl, rfl, rfl,
          h2.push _⟩⟩
        refine (upcoming_push _).trans ?_
        congr 1
        unfold expansion
        simp only [List.map_cons]
        rw [← List.map_cons, List.flatMap_map]
        refine flatMap_congr fun x hx => substToken_eq h5 span fun i hi => ?_
        refine hp.2 i (List.mem_map.2 ⟨x, hx, by rw [hi]⟩)
    · refine Or.inr ⟨by omega, e, s1, ?_, h2⟩
      simp only [List.length_nil] at h1
      rw [h1]

/-- C14. There is at most one way to read an argument: where it ends is determined. -/
theorem argAt_unique {u : Stream} {a a' v v'} (h : ArgAt u a v) (h' : ArgAt u a' v') : a = a' ∧ v = v' := by
  cases h with
  | token h1 h2 h3 =>
    cases h' with
    | token k1 k2 k3 => obtain ⟨rfl, rfl⟩ := h1.unique k1; exact ⟨rfl, rfl⟩
    | group k1 k2 k3 => obtain ⟨rfl, rfl⟩ := h1.unique k1; exact absurd k2 h2
  | group h1 h2 h3 =>
    cases h' with
    | token k1 k2 k3 => obtain ⟨rfl, rfl⟩ := h1.unique k1; exact absurd h2 k2
    | group k1 k2 k3 =>
      obtain ⟨rfl, rfl⟩ := h1.unique k1
      obtain ⟨rfl, rfl⟩ := C39_unique h3 k3
      exact ⟨rfl, rfl⟩

/-- C14. The arguments of a call are determined by the tokens after it, and so is what comes after them. -/
theorem C14_arguments_unique {n : Nat} {u : Stream} {a a' v v'} (h : ArgsAt n u a v) (h' : ArgsAt n u a' v') :
    a = a' ∧ v = v' := by
  induction h generalizing a' v' with
  | nil => cases h'; exact ⟨rfl, rfl⟩
  | cons h1 _ ih =>
    cases h' with
    | cons k1 k2 =>
      obtain ⟨rfl, rfl⟩ := argAt_unique h1 k1
      obtain ⟨rfl, rfl⟩ := ih k2
      exact ⟨rfl, rfl⟩

/-- If everything can be tokenised and is known, an argument which cannot be read is not there. -/
theorem argFails_none {u : Stream} (hlex : ∀ i e, u i ≠ .error e)
    (hknown : ∀ i t name, u i = .ok t → t.tok.unwrapMath ≠ .unresolvedCommand name) {e} (h : ArgFails cfg u e) :
    ¬ ∃ a v, ArgAt u a v := by
  rintro ⟨a, v, h'⟩
  cases h with
  | missing h1 h2 =>
    cases h' with
    | token k1 k2 k3 => obtain ⟨rfl, rfl⟩ := h1.unique k1; exact k3 h2
    | group k1 k2 k3 => obtain ⟨rfl, rfl⟩ := h1.unique k1; rw [h2] at k2; cases k2
  | unclosed h1 h2 h3 =>
    cases h' with
    | token k1 k2 k3 => obtain ⟨rfl, rfl⟩ := h1.unique k1; exact k2 h2
    | group k1 k2 k3 =>
      obtain ⟨rfl, rfl⟩ := h1.unique k1
      exact C39_unclosed_none h3 ⟨_, _, k3⟩
  | lexer h1 => exact hlex _ _ h1
  | unknown h1 h2 h3 => exact hknown _ _ _ h1.1 h2
  | @unknownInside _ _ _ t' name h1 h2 h3 h4 =>
    have h5 : t'.tok = .unresolvedCommand name := h3.isUnknown
    exact hknown _ t' name h3.after (by rw [h5]; rfl)

theorem argAt_drop {u : Stream} {a v} (h : ArgAt u a v) : ∃ k, v = u.drop k := by
  cases h <;> exact ⟨_, rfl⟩

/-- C14. If everything can be tokenised and is known, then the arguments are there or they are missing, but not
both: the expansion of a call succeeds if and only if its arguments are there and an expansion is left. -/
theorem C14_fails_only_without_arguments {n : Nat} {u : Stream} (hlex : ∀ i e, u i ≠ .error e)
    (hknown : ∀ i t name, u i = .ok t → t.tok.unwrapMath ≠ .unresolvedCommand name) {e} (h : ArgsFail cfg n u e) :
    ¬ ∃ a v, ArgsAt n u a v := by
  induction h with
  | here h =>
    rintro ⟨_, _, h'⟩
    cases h' with
    | cons k1 k2 => exact argFails_none hlex hknown h ⟨_, _, k1⟩
  | later h _ ih =>
    rintro ⟨_, _, h'⟩
    cases h' with
    | cons k1 k2 =>
      obtain ⟨rfl, rfl⟩ := argAt_unique h k1
      obtain ⟨k, hk⟩ := argAt_drop h
      subst hk
      exact ih (fun i e => hlex _ _) (fun i t name => hknown _ _ _) ⟨_, _, k2⟩

theorem C14_succeeds_iff (s : PState) (hq : QInv s.q) (source : CmdSource) (numArgs start stop : Nat) (span : Span)
    (body : List RecordedToken) (hb : s.q.stores.getBody source start stop = some body) (hp : ParamsOk numArgs body)
    (hlex : ∀ i e, upcoming cfg s.q i ≠ .error e)
    (hknown : ∀ i t name, upcoming cfg s.q i = .ok t → t.tok.unwrapMath ≠ .unresolvedCommand name) :
    (∃ r s', expandCustomCmdRef source numArgs start stop span cfg s = .ok r s') ↔
      0 < s.expansionsLeft ∧ ∃ args rest, ArgsAt numArgs (upcoming cfg s.q) args rest := by
  rcases C14_expansion (cfg := cfg) s hq source numArgs start stop span body hb hp with ⟨h, h'⟩ |
    ⟨h, s', h', h2⟩ | ⟨h, e, s', h', h2⟩
  · rw [h']
    exact ⟨fun ⟨_, _, hx⟩ => (nomatch hx), fun ⟨hx, _⟩ => absurd hx (by omega)⟩
  · obtain ⟨args, rest, h3, -⟩ := h2.tokens
    exact ⟨fun _ => ⟨h, args, rest, h3⟩, fun _ => ⟨_, s', h'⟩⟩
  · rw [h']
    exact ⟨fun ⟨_, _, hx⟩ => (nomatch hx), fun ⟨_, hx⟩ => absurd hx (C14_fails_only_without_arguments hlex hknown h2)⟩

/-- Whether the parameters in a body are at most `#9` -/
def paramsOkB : Token → Bool
  | .customCmd n body => n ≤ 9 && body.all fun
    | .customCmdArg i => i < 9
    | _ => true
  | _ => true

theorem commands_params : (commands.all (fun e => paramsOkB e.2) && unreliableCmds.all (fun e => paramsOkB e.2) &&
    substitutedCmds.all (fun e => paramsOkB e.2)) = true := by decide +kernel

/-- C14. `C14_expansion_builtin` is about all macros among the built-in commands. -/
theorem C14_builtin_params {name : Str} {numArgs body} (h : cfg.builtin name = some (.customCmd numArgs body)) :
    ParamsOk numArgs (body.map .token) := by
  have hp : paramsOkB (.customCmd numArgs body) = true := by
    have hc := commands_params
    simp only [Bool.and_eq_true] at hc
    unfold ParserConfig.builtin resolveBuiltinCmd at h
    rw [Option.or_eq_some_iff, Option.or_eq_some_iff, Option.or_eq_some_iff] at h
    rcases h with h | ⟨-, h | ⟨-, h | ⟨-, h⟩⟩⟩
    · split at h
      · exact lookup_allB hc.1.2 h
      · cases h
    · split at h
      · exact lookup_allB hc.2 h
      · cases h
    · exact lookup_allB hc.1.1 h
    · split at h <;> cases h
  simp only [paramsOkB, Bool.and_eq_true, decide_eq_true_eq] at hp
  refine ⟨hp.1, fun i hi => ?_⟩
  obtain ⟨t, ht, rfl⟩ : ∃ t ∈ body, t = .customCmdArg i := by
    obtain ⟨t, ht, he⟩ := List.mem_map.1 hi
    exact ⟨t, ht, by injection he⟩
  simpa using List.all_eq_true.1 hp.2 _ ht

/-! Non-vacuity: the call `\m` of a macro with the body `#2x#1`, before `{ab} c d`. -/

def exampleMacro : CmdStores :=
  (({} : CmdStores).define c!"m" 2 [.token (.customCmdArg 1), .commandName c!"alpha", .token (.customCmdArg 0)] none
    false false).getD {}

example : (exampleMacro.resolveCommand (ParserConfig.builtin {}) c!"m") = some (.customCmdRef .loc 2 none 0 3) ∧
    (exampleMacro.getBody .loc 0 3).isSome = true ∧ ParamsOk 2 ((exampleMacro.getBody .loc 0 3).getD []) := by
  refine ⟨rfl, by decide +kernel, by decide, fun i hi => ?_⟩
  have : (exampleMacro.getBody .loc 0 3).getD [] =
    [.token (.customCmdArg 1), .commandName c!"alpha", .token (.customCmdArg 0)] := by rfl
  rw [this] at hi
  simp at hi
  omega

end Verif

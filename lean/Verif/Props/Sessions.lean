import Verif.Spec.Session
/-! Properties C17, C18 and C19: what calls of a converter have to do with each other. -/
namespace Verif
open Model Spec

theorem perform_cfg (fuel c call) : (perform fuel c call).2.parserCfg = c.parserCfg ∧
    (perform fuel c call).2.emitterCfg = c.emitterCfg := by
  cases call <;> exact ⟨rfl, rfl⟩

theorem after_cfg (fuel c calls) : (after fuel c calls).parserCfg = c.parserCfg ∧
    (after fuel c calls).emitterCfg = c.emitterCfg := by
  unfold after
  induction calls generalizing c with
  | nil => exact ⟨rfl, rfl⟩
  | cons call calls ih =>
    obtain ⟨h1, h2⟩ := perform_cfg fuel c call
    obtain ⟨h3, h4⟩ := ih (perform fuel c call).2
    exact ⟨h3.trans h1, h4.trans h2⟩

theorem session_append (fuel c calls calls') :
    session fuel c (calls ++ calls') =
      ((session fuel c calls).1 ++ (session fuel (after fuel c calls) calls').1,
       (session fuel (after fuel c calls) calls').2) := by
  unfold after
  induction calls generalizing c with
  | nil => rfl
  | cons call calls ih =>
    simp only [List.cons_append, session, ih]

/-- C17. A conversion with local state gives the same result whatever has happened before. -/
theorem C17_history_independent (fuel : Nat) (c : Converter) (calls : List Call) (latex : Str)
    (display : MathDisplay) :
    (perform fuel (after fuel c calls) (.withLocalState latex display)).1 =
      (perform fuel c (.withLocalState latex display)).1 := by
  obtain ⟨h1, h2⟩ := after_cfg fuel c calls
  unfold perform Converter.convertWithLocalState
  simp only [h1, h2]

/-- The replies of the calls which have to do with the global state -/
def globalReplies : List Call → List Reply → List Reply
  | call :: calls, r :: rs => if call.isGlobal then r :: globalReplies calls rs else globalReplies calls rs
  | _, _ => []

/-- C17 and C19. Conversions with local state and conversions of batches have no influence on anything:
leaving them out changes neither what the other calls return nor the converter. -/
theorem C17_no_influence (fuel : Nat) (c : Converter) (calls : List Call) :
    session fuel c (calls.filter Call.isGlobal) =
      (globalReplies calls (session fuel c calls).1, after fuel c calls) := by
  unfold after
  induction calls generalizing c with
  | nil => rfl
  | cons call calls ih =>
    cases call with
    | withGlobalState latex display =>
      rw [List.filter_cons_of_pos rfl]
      simp only [session, globalReplies, Call.isGlobal, ih, if_true]
    | reset =>
      rw [List.filter_cons_of_pos rfl]
      simp only [session, globalReplies, Call.isGlobal, ih, if_true]
    | withLocalState latex display => simp [session, globalReplies, Call.isGlobal, ih, perform]
    | all snippets => simp [session, globalReplies, Call.isGlobal, ih, perform]

/-- C18. After a reset, a converter is like a new one, whatever has happened before: every sequence of
calls returns the same. -/
theorem C18_reset (fuel : Nat) (config : MathCoreConfig) (c : Converter) (hc : Converter.new config = .ok c)
    (before later : List Call) :
    (session fuel (after fuel c (before ++ [.reset])) later).1 = (session fuel c later).1 := by
  have hstate : c.state = {} := by
    unfold Converter.new at hc
    split at hc
    · cases hc
    · cases hc; rfl
  have : after fuel c (before ++ [.reset]) = c := by
    unfold after
    rw [session_append]
    obtain ⟨h1, h2⟩ := after_cfg fuel c before
    simp only [session, perform, Converter.resetGlobalState, h1, h2, CustomCmds.clear]
    obtain ⟨e, s, p⟩ := c
    simp only at hstate h1 h2
    rw [hstate]
  rw [this]

/-! ### C19 -/

/-- The global state after the snippets have been parsed one after the other, starting from an empty state;
a snippet which fails keeps what it has done so far. -/
def batchState (fuel : Nat) (cfg : SnippetConfig) : List (Str × MathDisplay) → GlobalState
  | snippets => (snippets.foldl (fun g s => (parseSnippet fuel cfg g s.1 s.2).stateOr g) {})

theorem parseAll_spec (fuel cfg) (snippets : List (Str × MathDisplay)) (g : GlobalState) :
    (Converter.parseAll fuel cfg g snippets).2 =
      snippets.foldl (fun g s => (parseSnippet fuel cfg g s.1 s.2).stateOr g) g ∧
    (Converter.parseAll fuel cfg g snippets).1.length = snippets.length ∧
    ∀ (i : Nat) (s : Str × MathDisplay), snippets[i]? = some s →
      (Converter.parseAll fuel cfg g snippets).1[i]? =
        some ((parseSnippet fuel cfg ((snippets.take i).foldl
          (fun g s => (parseSnippet fuel cfg g s.1 s.2).stateOr g) g) s.1 s.2).outcome) := by
  induction snippets generalizing g with
  | nil => exact ⟨rfl, rfl, by simp⟩
  | cons s rest ih =>
    obtain ⟨latex, display⟩ := s
    obtain ⟨h1, h2, h3⟩ := ih ((parseSnippet fuel cfg g latex display).stateOr g)
    unfold Converter.parseAll
    simp only
    refine ⟨h1, by simp [h2], ?_⟩
    intro i s hs
    cases i with
    | zero => simp at hs; subst hs; rfl
    | succ i =>
      simp only [List.getElem?_cons_succ, List.take_succ_cons, List.foldl_cons] at hs ⊢
      exact h3 i s hs

/-- C19. Converting a batch gives one result for every snippet, in order. -/
theorem C19_length (fuel : Nat) (c : Converter) (snippets : List (Str × MathDisplay)) :
    (c.convertAll fuel snippets).length = snippets.length := by
  unfold Converter.convertAll
  have := (parseAll_spec fuel c.parserCfg snippets {}).2.1
  simp [this]

/-- C19. The result for a snippet is what it parses to after the snippets before it, with references
resolved by the labels of the whole batch. In particular it does not matter whether other snippets fail. -/
theorem C19_each (fuel : Nat) (c : Converter) (snippets : List (Str × MathDisplay)) (i : Nat) (latex : Str)
    (display : MathDisplay) (h : snippets[i]? = some (latex, display)) :
    (c.convertAll fuel snippets)[i]? =
      some (match parseSnippet fuel c.parserCfg (batchState fuel c.parserCfg (snippets.take i)) latex display with
        | .ok ast _ => .ok (emitSnippet c.emitterCfg (batchState fuel c.parserCfg snippets).labelMap latex
            display ast)
        | .err e _ => .err e
        | .panic => .panic
        | .fuel => .fuel) := by
  obtain ⟨h1, h2, h3⟩ := parseAll_spec fuel c.parserCfg snippets {}
  have h4 := h3 i _ h
  unfold Converter.convertAll
  simp only
  rw [List.getElem?_zipWith, h, h4]
  simp only [h1]
  unfold batchState
  simp only [Option.some.injEq]
  generalize parseSnippet fuel c.parserCfg _ latex display = r
  cases r <;> rfl

/-- C19. A batch is like converting the snippets one after the other with a new converter, except that
references are resolved by the labels of the whole batch: for every snippet, both come from the same parsed
snippet or the same error. -/
theorem C19_like_global (fuel : Nat) (c : Converter) (snippets : List (Str × MathDisplay)) (i : Nat)
    (latex : Str) (display : MathDisplay) (h : snippets[i]? = some (latex, display)) :
    ∃ (parsed : Outcome (List Node)) (labels : StrMap Str),
      (session fuel c.resetGlobalState (snippets.map fun s => .withGlobalState s.1 s.2)).1[i]? =
        some (.one (Converter.emitResult c.emitterCfg labels latex display parsed)) ∧
      (c.convertAll fuel snippets)[i]? =
        some (Converter.emitResult c.emitterCfg (batchState fuel c.parserCfg snippets).labelMap latex display
          parsed) := by
  have hstate : ∀ (sn : List (Str × MathDisplay)) (d : Converter),
      (after fuel d (sn.map fun s => .withGlobalState s.1 s.2)).state =
        sn.foldl (fun g s => (parseSnippet fuel d.parserCfg g s.1 s.2).stateOr g) d.state := by
    intro sn
    induction sn with
    | nil => intro d; rfl
    | cons s sn ih =>
      intro d
      have := ih (perform fuel d (.withGlobalState s.1 s.2)).2
      unfold after at this ⊢
      rw [List.map_cons]
      unfold session
      simp only
      rw [this, (perform_cfg fuel d (.withGlobalState s.1 s.2)).1, List.foldl_cons]
      congr 1
      simp only [perform, Converter.convertWithGlobalState, convert]
      cases parseSnippet fuel d.parserCfg d.state s.1 s.2 <;> rfl
  have hget : ∀ (sn : List (Str × MathDisplay)) (d : Converter) (j : Nat), sn[j]? = some (latex, display) →
      (session fuel d (sn.map fun s => .withGlobalState s.1 s.2)).1[j]? =
        some (perform fuel (after fuel d ((sn.take j).map fun s => .withGlobalState s.1 s.2))
          (.withGlobalState latex display)).1 := by
    intro sn
    induction sn with
    | nil => intro d j hj; simp at hj
    | cons s sn ih =>
      intro d j hj
      cases j with
      | zero => simp at hj; subst hj; rfl
      | succ j => simpa [session, after] using ih _ j (by simpa using hj)
  refine ⟨(parseSnippet fuel c.parserCfg (batchState fuel c.parserCfg (snippets.take i)) latex display).outcome,
    ((parseSnippet fuel c.parserCfg (batchState fuel c.parserCfg (snippets.take i)) latex display).stateOr
      {}).labelMap, ?_, ?_⟩
  · rw [hget _ _ _ h]
    have h1 := hstate (snippets.take i) c.resetGlobalState
    have h2 := after_cfg fuel c.resetGlobalState ((snippets.take i).map fun s => .withGlobalState s.1 s.2)
    generalize after fuel c.resetGlobalState ((snippets.take i).map fun s => .withGlobalState s.1 s.2) = d
      at h1 h2 ⊢
    simp only [perform, Converter.convertWithGlobalState, convert, h2.1, h2.2, h1]
    unfold batchState
    rw [show c.resetGlobalState.state = {} from rfl, show c.resetGlobalState.parserCfg = c.parserCfg from rfl,
      show c.resetGlobalState.emitterCfg = c.emitterCfg from rfl]
    generalize parseSnippet fuel c.parserCfg _ latex display = r
    cases r <;> rfl
  · rw [C19_each fuel c snippets i latex display h]
    generalize parseSnippet fuel c.parserCfg _ latex display = r
    cases r <;> rfl

/-! ### These calls can be made -/

/-- A configuration -/
def exampleConfig : MathCoreConfig :=
  { macros := [(c!"R", c!"\\mathbb{R}"), (c!"half", c!"\\frac{#1}{2}")], unknownClass := c!"unknown",
    indentation := .spaces 2, fmt := fun _ => [] }

/-- A batch with a forward reference and a snippet with an error in between -/
def exampleBatch : List (Str × MathDisplay) :=
  [(c!"\\eqref{a}", .inline), (c!"}", .inline), (c!"\\begin{align}x\\label{a}\\end{align}", .block)]

example : (match Converter.new exampleConfig with
    | .error _ => []
    | .ok c => ((c.convertAll 100 exampleBatch).map
          fun (r : Outcome Out) => match r with | .ok out => out.s | _ => []).take 2) =
    [c!"<math><mtext><a href=\"#a\">(1)</a></mtext></math>", []] := by
  decide +kernel

end Verif

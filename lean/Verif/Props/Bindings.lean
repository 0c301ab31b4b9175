import Verif.Model.Bindings
import Verif.Props.Sessions
/-! Property C41: errors in the Python and JavaScript bindings. -/
namespace Verif
open Model Spec

/-- The text which replaces a formula: what the library gives, or the error as HTML -/
def shown (texts : Texts) (latex : Str) (displaystyle : Bool) : Outcome Out → Option Str
  | .ok out => some out.s
  | .err e => some (toHtml e.start (texts.message e) latex (displayOf displaystyle) none)
  | _ => none

/-- The first failing snippet, with its index -/
def firstError : List (Outcome Out) → Option (Nat × LatexError)
  | [] => none
  | .err e :: _ => some (0, e)
  | _ :: rs => (firstError rs).map fun (i, e) => (i + 1, e)

/-- No snippet makes the library panic (or exceeds the bound on the recursion of the model). -/
def Calm (rs : List (Outcome Out)) : Prop := ∀ r ∈ rs, (∃ out, r = .ok out) ∨ ∃ e, r = .err e

theorem calm_batch {rs : List (Outcome Out)} (h : Calm rs) : batchCrash rs = none ∧ jsBatchCrash rs = none := by
  induction rs with
  | nil => exact ⟨rfl, rfl⟩
  | cons r rs ih =>
    have := ih fun x hx => h x (List.mem_cons_of_mem _ hx)
    rcases h r (by simp) with ⟨out, rfl⟩ | ⟨e, rfl⟩ <;> exact this

theorem many_continue (f : PyFlags) (hf : f.continueOnError = true) (i : Nat) (snippets : List (Str × Bool))
    (rs : List (Outcome Out)) (hlen : rs.length = snippets.length) (hc : Calm rs) (acc : List Str) :
    ∃ l, f.many i snippets rs acc = .list (acc ++ l) ∧
      l.map some = List.zipWith (fun s r => shown f.texts s.1 s.2 r) snippets rs := by
  induction snippets generalizing i rs acc with
  | nil =>
    cases rs with
    | nil => exact ⟨[], by simp [PyFlags.many], rfl⟩
    | cons r rs => cases hlen
  | cons s snippets ih =>
    cases rs with
    | nil => cases hlen
    | cons r rs =>
      obtain ⟨latex, d⟩ := s
      have hlen' : rs.length = snippets.length := by simpa using hlen
      have hc' : Calm rs := fun x hx => hc x (List.mem_cons_of_mem _ hx)
      rcases hc r (by simp) with ⟨out, rfl⟩ | ⟨e, rfl⟩
      · obtain ⟨l, h1, h2⟩ := ih (i + 1) rs hlen' hc' (acc ++ [out.s])
        refine ⟨out.s :: l, ?_, ?_⟩
        · simp only [PyFlags.many]; rw [h1]; simp
        · simp only [List.map_cons, List.zipWith_cons_cons, h2]; rfl
      · obtain ⟨l, h1, h2⟩ := ih (i + 1) rs hlen' hc'
          (acc ++ [toHtml e.start (f.texts.message e) latex (displayOf d) none])
        refine ⟨toHtml e.start (f.texts.message e) latex (displayOf d) none :: l, ?_, ?_⟩
        · simp only [PyFlags.many, hf, if_true]; rw [h1, List.append_assoc]; rfl
        · simp only [List.map_cons, List.zipWith_cons_cons, h2]; rfl

theorem many_raise (f : PyFlags) (hf : f.continueOnError = false) (i : Nat) (snippets : List (Str × Bool))
    (rs : List (Outcome Out)) (hlen : rs.length = snippets.length) (hc : Calm rs) (acc : List Str) :
    match firstError rs with
    | some (j, e) => ∃ latex d, snippets[j]? = some (latex, d) ∧
        f.many i snippets rs acc = .latexError (f.conversionError e latex (some (i + j)))
    | none => ∃ l, f.many i snippets rs acc = .list (acc ++ l) ∧
        l.map some = List.zipWith (fun s r => shown f.texts s.1 s.2 r) snippets rs := by
  induction snippets generalizing i rs acc with
  | nil =>
    cases rs with
    | nil => exact ⟨[], by simp [PyFlags.many], rfl⟩
    | cons r rs => cases hlen
  | cons s snippets ih =>
    cases rs with
    | nil => cases hlen
    | cons r rs =>
      obtain ⟨latex, d⟩ := s
      have hlen' : rs.length = snippets.length := by simpa using hlen
      have hc' : Calm rs := fun x hx => hc x (List.mem_cons_of_mem _ hx)
      rcases hc r (by simp) with ⟨out, rfl⟩ | ⟨e, rfl⟩
      · have := ih (i + 1) rs hlen' hc' (acc ++ [out.s])
        simp only [firstError, PyFlags.many]
        revert this
        cases firstError rs with
        | some x =>
          obtain ⟨j, e⟩ := x
          rintro ⟨latex', d', h1, h2⟩
          refine ⟨latex', d', by simpa using h1, ?_⟩
          rw [h2, show i + 1 + j = i + (j + 1) by omega]
        | none =>
          rintro ⟨l, h1, h2⟩
          refine ⟨out.s :: l, ?_, ?_⟩
          · rw [h1]; simp
          · simp only [List.map_cons, List.zipWith_cons_cons, h2]; rfl
      · simp only [firstError, PyFlags.many, hf, Bool.false_eq_true, if_false]
        exact ⟨latex, d, rfl, rfl⟩

theorem js_many_continue (f : JsFlags) (hf : f.throwOnError = false) (i : Nat) (snippets : List (Str × Bool))
    (rs : List (Outcome Out)) (hlen : rs.length = snippets.length) (hc : Calm rs) (acc : List Str) :
    ∃ l, f.many i snippets rs acc = .array (acc ++ l) ∧
      l.map some = List.zipWith (fun s r => shown f.texts s.1 s.2 r) snippets rs := by
  induction snippets generalizing i rs acc with
  | nil =>
    cases rs with
    | nil => exact ⟨[], by simp [JsFlags.many], rfl⟩
    | cons r rs => cases hlen
  | cons s snippets ih =>
    cases rs with
    | nil => cases hlen
    | cons r rs =>
      obtain ⟨latex, d⟩ := s
      have hlen' : rs.length = snippets.length := by simpa using hlen
      have hc' : Calm rs := fun x hx => hc x (List.mem_cons_of_mem _ hx)
      rcases hc r (by simp) with ⟨out, rfl⟩ | ⟨e, rfl⟩
      · obtain ⟨l, h1, h2⟩ := ih (i + 1) rs hlen' hc' (acc ++ [out.s])
        refine ⟨out.s :: l, ?_, ?_⟩
        · simp only [JsFlags.many]; rw [h1]; simp
        · simp only [List.map_cons, List.zipWith_cons_cons, h2]; rfl
      · obtain ⟨l, h1, h2⟩ := ih (i + 1) rs hlen' hc'
          (acc ++ [toHtml e.start (f.texts.message e) latex (displayOf d) none])
        refine ⟨toHtml e.start (f.texts.message e) latex (displayOf d) none :: l, ?_, ?_⟩
        · simp only [JsFlags.many, hf, Bool.false_eq_true, if_false]; rw [h1, List.append_assoc]; rfl
        · simp only [List.map_cons, List.zipWith_cons_cons, h2]; rfl

theorem js_many_throw (f : JsFlags) (hf : f.throwOnError = true) (i : Nat) (snippets : List (Str × Bool))
    (rs : List (Outcome Out)) (hlen : rs.length = snippets.length) (hc : Calm rs) (acc : List Str) :
    match firstError rs with
    | some (j, e) => ∃ latex d, snippets[j]? = some (latex, d) ∧
        f.many i snippets rs acc = .throws (f.conversionError e latex (some (asU32 (i + j))))
    | none => ∃ l, f.many i snippets rs acc = .array (acc ++ l) ∧
        l.map some = List.zipWith (fun s r => shown f.texts s.1 s.2 r) snippets rs := by
  induction snippets generalizing i rs acc with
  | nil =>
    cases rs with
    | nil => exact ⟨[], by simp [JsFlags.many], rfl⟩
    | cons r rs => cases hlen
  | cons s snippets ih =>
    cases rs with
    | nil => cases hlen
    | cons r rs =>
      obtain ⟨latex, d⟩ := s
      have hlen' : rs.length = snippets.length := by simpa using hlen
      have hc' : Calm rs := fun x hx => hc x (List.mem_cons_of_mem _ hx)
      rcases hc r (by simp) with ⟨out, rfl⟩ | ⟨e, rfl⟩
      · have := ih (i + 1) rs hlen' hc' (acc ++ [out.s])
        simp only [firstError, JsFlags.many]
        revert this
        cases firstError rs with
        | some x =>
          obtain ⟨j, e⟩ := x
          rintro ⟨latex', d', h1, h2⟩
          refine ⟨latex', d', by simpa using h1, ?_⟩
          rw [h2, show i + 1 + j = i + (j + 1) by omega]
        | none =>
          rintro ⟨l, h1, h2⟩
          refine ⟨out.s :: l, ?_, ?_⟩
          · rw [h1]; simp
          · simp only [List.map_cons, List.zipWith_cons_cons, h2]; rfl
      · simp only [firstError, JsFlags.many, hf, if_true]
        exact ⟨latex, d, rfl, rfl⟩

/-- The results which the library gives for a batch of the bindings -/
def batchResults (fuel : Nat) (c : Converter) (snippets : List (Str × Bool)) : List (Outcome Out) :=
  c.convertAll fuel (snippets.map fun (latex, d) => (latex, displayOf d))

theorem batchResults_length (fuel : Nat) (c : Converter) (snippets : List (Str × Bool)) :
    (batchResults fuel c snippets).length = snippets.length := by
  unfold batchResults
  rw [C19_length, List.length_map]

/-- C41. Python, one formula: the exception is raised exactly if the library fails and errors are not to be shown;
what is returned otherwise is what the library gives or the error as HTML. -/
theorem C41_python_one (f : PyFlags) (fuel : Nat) (c : Converter) (latex : Str) (d : Bool) :
    ((∃ msg, (f.run fuel c (.withLocalState latex d)).1 = .latexError msg) ↔
      f.continueOnError = false ∧ ∃ e, c.convertWithLocalState fuel latex (displayOf d) = .err e) ∧
    ∀ s, (f.run fuel c (.withLocalState latex d)).1 = .str s →
      shown f.texts latex d (c.convertWithLocalState fuel latex (displayOf d)) = some s := by
  show ((∃ msg, f.one latex d (c.convertWithLocalState fuel latex (displayOf d)) = .latexError msg) ↔ _) ∧
    ∀ s, f.one latex d (c.convertWithLocalState fuel latex (displayOf d)) = .str s → _
  cases c.convertWithLocalState fuel latex (displayOf d) <;> cases hf : f.continueOnError <;>
    simp [PyFlags.one, shown, hf]

/-- C41. Python, one formula with the global state -/
theorem C41_python_one_global (f : PyFlags) (fuel : Nat) (c : Converter) (latex : Str) (d : Bool) :
    ((∃ msg, (f.run fuel c (.withGlobalState latex d)).1 = .latexError msg) ↔
      f.continueOnError = false ∧ ∃ e, (c.convertWithGlobalState fuel latex (displayOf d)).1 = .err e) ∧
    ∀ s, (f.run fuel c (.withGlobalState latex d)).1 = .str s →
      shown f.texts latex d (c.convertWithGlobalState fuel latex (displayOf d)).1 = some s := by
  show ((∃ msg, f.one latex d (c.convertWithGlobalState fuel latex (displayOf d)).1 = .latexError msg) ↔ _) ∧
    ∀ s, f.one latex d (c.convertWithGlobalState fuel latex (displayOf d)).1 = .str s → _
  cases (c.convertWithGlobalState fuel latex (displayOf d)).1 <;> cases hf : f.continueOnError <;>
    simp [PyFlags.one, shown, hf]

/-- C41. Python, a batch with `continue_on_error`: no exception, one text per snippet. -/
theorem C41_python_batch_continues (f : PyFlags) (fuel : Nat) (c : Converter) (snippets : List (Str × Bool))
    (hf : f.continueOnError = true) (hc : Calm (batchResults fuel c snippets)) :
    ∃ l, (f.run fuel c (.all snippets)).1 = .list l ∧ l.length = snippets.length ∧
      l.map some = List.zipWith (fun s r => shown f.texts s.1 s.2 r) snippets (batchResults fuel c snippets) := by
  obtain ⟨l, h1, h2⟩ := many_continue f hf 0 snippets _ (batchResults_length fuel c snippets) hc []
  refine ⟨l, ?_, ?_, h2⟩
  · unfold PyFlags.run
    show ((batchCrash (batchResults fuel c snippets)).getD (f.many 0 snippets (batchResults fuel c snippets) [])) = _
    rw [(calm_batch hc).1, h1]; rfl
  · have := congrArg List.length h2
    rw [List.length_map, List.length_zipWith, batchResults_length] at this
    omega

/-- C41. Python, a batch without `continue_on_error`: the exception is about the first snippet which fails, and names
its index; without a failing one all texts are returned. -/
theorem C41_python_batch_raises (f : PyFlags) (fuel : Nat) (c : Converter) (snippets : List (Str × Bool))
    (hf : f.continueOnError = false) (hc : Calm (batchResults fuel c snippets)) :
    match firstError (batchResults fuel c snippets) with
    | some (j, e) => ∃ latex d, snippets[j]? = some (latex, d) ∧
        (f.run fuel c (.all snippets)).1 = .latexError (f.conversionError e latex (some j))
    | none => ∃ l, (f.run fuel c (.all snippets)).1 = .list l ∧
        l.map some = List.zipWith (fun s r => shown f.texts s.1 s.2 r) snippets (batchResults fuel c snippets) := by
  have h := many_raise f hf 0 snippets _ (batchResults_length fuel c snippets) hc []
  have hrun : (f.run fuel c (.all snippets)).1 = f.many 0 snippets (batchResults fuel c snippets) [] := by
    unfold PyFlags.run
    show ((batchCrash (batchResults fuel c snippets)).getD (f.many 0 snippets (batchResults fuel c snippets) [])) = _
    rw [(calm_batch hc).1]; rfl
  rw [hrun]
  revert h
  cases firstError (batchResults fuel c snippets) with
  | some x =>
    obtain ⟨j, e⟩ := x
    simp only [Nat.zero_add]
    exact id
  | none => simp only [List.nil_append]; exact id

/-- C41. JavaScript, a batch with `throwOnError: false` -/
theorem C41_js_batch_continues (f : JsFlags) (fuel : Nat) (c : Converter) (snippets : List (Str × Bool))
    (hf : f.throwOnError = false) (hc : Calm (batchResults fuel c snippets)) :
    ∃ l, (f.run fuel c (.all snippets)).1 = .array l ∧ l.length = snippets.length ∧
      l.map some = List.zipWith (fun s r => shown f.texts s.1 s.2 r) snippets (batchResults fuel c snippets) := by
  obtain ⟨l, h1, h2⟩ := js_many_continue f hf 0 snippets _ (batchResults_length fuel c snippets) hc []
  refine ⟨l, ?_, ?_, h2⟩
  · unfold JsFlags.run
    show ((jsBatchCrash (batchResults fuel c snippets)).getD (f.many 0 snippets (batchResults fuel c snippets) [])) = _
    rw [(calm_batch hc).2, h1]; rfl
  · have := congrArg List.length h2
    rw [List.length_map, List.length_zipWith, batchResults_length] at this
    omega

/-- C41. JavaScript, a batch with `throwOnError: true`; the positions are counted in UTF-16 code units. -/
theorem C41_js_batch_throws (f : JsFlags) (fuel : Nat) (c : Converter) (snippets : List (Str × Bool))
    (hf : f.throwOnError = true) (hc : Calm (batchResults fuel c snippets)) :
    match firstError (batchResults fuel c snippets) with
    | some (j, e) => ∃ latex d err, snippets[j]? = some (latex, d) ∧
        (f.run fuel c (.all snippets)).1 = .throws err ∧
        err.index = some (j % 4294967296) ∧ err.message = f.texts.message e ∧
        err.start = byteOffsetToUtf16 latex e.start % 4294967296 ∧
        err.stop = byteOffsetToUtf16 latex e.stop % 4294967296
    | none => ∃ l, (f.run fuel c (.all snippets)).1 = .array l ∧
        l.map some = List.zipWith (fun s r => shown f.texts s.1 s.2 r) snippets (batchResults fuel c snippets) := by
  have h := js_many_throw f hf 0 snippets _ (batchResults_length fuel c snippets) hc []
  have hrun : (f.run fuel c (.all snippets)).1 = f.many 0 snippets (batchResults fuel c snippets) [] := by
    unfold JsFlags.run
    show ((jsBatchCrash (batchResults fuel c snippets)).getD (f.many 0 snippets (batchResults fuel c snippets) [])) = _
    rw [(calm_batch hc).2]; rfl
  rw [hrun]
  revert h
  cases firstError (batchResults fuel c snippets) with
  | some x =>
    obtain ⟨j, e⟩ := x
    rintro ⟨latex, d, h1, h2⟩
    refine ⟨latex, d, _, h1, h2, ?_, rfl, rfl, rfl⟩
    simp [JsFlags.conversionError, asU32]
  | none => simp only [List.nil_append]; exact id

/-- C41. Both bindings change the converter in the same way, whatever they do with errors. -/
theorem C41_same_state (f : PyFlags) (g : JsFlags) (fuel : Nat) (c : Converter) (m : Method) :
    (f.run fuel c m).2 = (g.run fuel c m).2 := by
  cases m <;> rfl

/-- Messages for the example -/
def exampleTexts : Texts where
  message _ := c!"oops"
  label _ := []
  report _ _ _ := []

/-- The hypotheses are met by a batch with a failing snippet, which is reported as number 1. -/
example : (match Converter.new exampleConfig with
    | .ok c =>
      let rs := batchResults 100 c [(c!"x", false), (c!"y\\nope", false), (c!"{", true)]
      (rs.all fun r => match r with | .ok _ | .err _ => true | _ => false) &&
      decide ((PyFlags.run ⟨false, false, exampleTexts⟩ 100 c
        (.all [(c!"x", false), (c!"y\\nope", false), (c!"{", true)])).1 = .latexError c!"input1:1: oops")
    | .error _ => false) = true := by decide +kernel

end Verif

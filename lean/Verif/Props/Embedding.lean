import Verif.Props.Escaping
import Verif.Lemmas.Xml
import Verif.Spec.Answers
import Verif.Props.Output
/-! Property C01 for what the interface returns: the source in the annotation and in the HTML of errors. -/
namespace Verif
open Model Spec

namespace Spec

/-- Whitespace between elements -/
def Whitespace (s : Str) : Prop := ∀ c ∈ s, c = ' ' ∨ c = '\t' ∨ c = '\n'

/-- The source is embedded as the text of the annotation, which is the last element of the document: what is between the
tags is character data, and decoding it gives the source. -/
def AnnotatedWith (source text : Str) : Prop :=
  ∃ before embedded w1 w2,
    text = before ++ c!"<annotation encoding=\"application/x-tex\">" ++ embedded ++ c!"</annotation>" ++ w1 ++
      c!"</semantics>" ++ w2 ++ c!"</math>" ∧
    InertText embedded ∧ unescape embedded = source ∧ Whitespace w1 ∧ Whitespace w2

/-- The sources of a call, each with its result -/
def results : Call → Reply → List (Str × Outcome Out)
  | .withGlobalState latex _, .one r => [(latex, r)]
  | .withLocalState latex _, .one r => [(latex, r)]
  | .all snippets, .many rs => (snippets.map (·.1)).zip rs
  | _, _ => []

end Spec

theorem whitespace_newLine (n : Nat) (i : Indentation) : Whitespace (newLineAndIndent n i) := by
  intro c hc
  unfold newLineAndIndent at hc
  rcases List.mem_append.1 hc with hc | hc
  · split at hc
    · exact .inr (.inr (List.mem_singleton.1 hc))
    · cases hc
  · rw [List.mem_flatten] at hc
    obtain ⟨l, hl, hc⟩ := hc
    rw [(List.mem_replicate.1 hl).2] at hc
    cases i with
    | tab => exact .inr (.inl (List.mem_singleton.1 hc))
    | spaces n => exact .inl (List.mem_replicate.1 hc).2

theorem emitDocument_annotated (flags : EmitterConfig) (ast : List Node) (latex : Str) (display : MathDisplay)
    (ha : flags.annotation = true) : AnnotatedWith latex (emitDocument flags ast latex display).s := by
  obtain ⟨t, ht, h1, h2⟩ := C01_content_escape [] latex
  have key : ∀ (a n1 n2 w2 : Str) (e : Out), Whitespace n1 → Whitespace w2 →
      AnnotatedWith latex (lit a ++ (lit (n1 ++ c!"<semantics>") ++ e ++
        lit (n2 ++ c!"<annotation encoding=\"application/x-tex\">") ++ lit (escapeHtmlContent [] latex ++ c!"</annotation>") ++
        lit (n1 ++ c!"</semantics>")) ++ lit (w2 ++ c!"</math>")).s := by
    intro a n1 n2 w2 e hw1 hw2
    refine ⟨a ++ n1 ++ c!"<semantics>" ++ e.s ++ n2, t, n1, w2, ?_, h1, h2, hw1, hw2⟩
    rw [ht]
    change (a ++ ((((n1 ++ _) ++ e.s) ++ _) ++ _ ++ _)) ++ _ = _
    have hl : ∀ x, (lit x).s = x := fun _ => rfl
    simp only [hl, List.append_assoc, List.nil_append]
  unfold emitDocument
  simp only [ha, if_true]
  refine key _ _ _ _ _ (whitespace_newLine _ _) ?_
  intro c hc
  split at hc
  · exact .inr (.inr (List.mem_singleton.1 hc))
  · cases hc

theorem perform_annotated (fuel : Nat) (c c' : Converter) (ha : c.emitterCfg.annotation = true) (call : Call) (r : Reply)
    (h : perform fuel c call = (r, c')) (src : Str) (out : Out) (hr : (src, .ok out) ∈ results call r) :
    AnnotatedWith src out.s := by
  have hconv : ∀ g display, (convert fuel c.parserCfg c.emitterCfg g src display).outcome = .ok out →
      AnnotatedWith src out.s := by
    intro g display hc
    unfold convert at hc
    cases hp : parseSnippet fuel c.parserCfg g src display with
    | ok ast g' =>
      rw [hp] at hc
      simp only [Res.outcome, Outcome.ok.injEq] at hc
      rw [← hc]
      exact emitDocument_annotated _ _ _ _ ha
    | _ => rw [hp] at hc; cases hc
  cases call with
  | withGlobalState latex display =>
    simp only [perform, Prod.mk.injEq] at h
    rw [← h.1] at hr
    simp only [results, List.mem_singleton, Prod.mk.injEq] at hr
    obtain ⟨rfl, hr⟩ := hr
    exact hconv _ display hr.symm
  | withLocalState latex display =>
    simp only [perform, Prod.mk.injEq] at h
    rw [← h.1] at hr
    simp only [results, List.mem_singleton, Prod.mk.injEq] at hr
    obtain ⟨rfl, hr⟩ := hr
    exact hconv _ display hr.symm
  | all snippets =>
    simp only [perform, Prod.mk.injEq] at h
    rw [← h.1] at hr
    simp only [results, Converter.convertAll] at hr
    obtain ⟨i, hi⟩ := List.getElem?_of_mem hr
    rw [List.getElem?_zip_eq_some, List.getElem?_map, Option.map_eq_some_iff, List.getElem?_zipWith] at hi
    obtain ⟨⟨⟨latex, display⟩, hs, rfl⟩, hi⟩ := hi
    rw [hs] at hi
    generalize (Converter.parseAll fuel c.parserCfg {} snippets).1[i]? = x at hi
    cases x with
    | none => cases hi
    | some x =>
      simp only [Option.some.injEq] at hi
      cases x with
      | ok ast =>
        simp only [Converter.emitResult, Outcome.ok.injEq] at hi
        rw [← hi]
        exact emitDocument_annotated _ _ _ _ ha
      | _ => cases hi
  | reset => cases h; cases hr

/-- C01, the annotation. If annotations are on, then every document which a call returns has its own source as the text
of the annotation, in a form which is inert and from which the source can be recovered: every source, every
configuration, every history, for all methods of the interface. -/
theorem C01_annotated {config : MathCoreConfig} (ha : config.annotation = true) {c₀ c c' : Converter}
    (hnew : Converter.new config = .ok c₀) {calls : List Call} (hc : Reaches c₀ calls c) {call : Call} {r : Reply}
    (h : Gives c call r c') {src : Str} {out : Out} (hr : (src, .ok out) ∈ results call r) :
    AnnotatedWith src out.s := by
  obtain ⟨n, h⟩ := h
  refine perform_annotated n c c' ?_ call r (h n (Nat.le_refl _)) src out hr
  rw [(reaches_cfg hc).2]
  have := congrArg EmitterConfig.annotation (new_emitter hnew {})
  exact this.trans ha

/-- C01, the HTML of an error: the source is the content of the element `code`, in a form which is inert and from which
it can be recovered. What comes before it has no `<code>` in it if the class has no `<`. -/
theorem C01_error_body (start : Nat) (msg latex : Str) (display : MathDisplay) (cls : Option Str) :
    ∃ before embedded after,
      toHtml start msg latex display cls = before ++ c!"<code>" ++ embedded ++ c!"</code>" ++ after ∧
      InertText embedded ∧ unescape embedded = latex ∧
      after = (if display = .block then c!"</p>" else c!"</span>") := by
  obtain ⟨t, ht, h1, h2⟩ := C01_content_escape
    (escapeAttr (c!"<" ++ (if display = .block then c!"p" else c!"span") ++ c!" class=\"" ++
      cls.getD c!"math-core-error" ++ c!"\" title=\"") (toMessage start msg latex) ++ c!"\"><code>") latex
  refine ⟨escapeAttr (c!"<" ++ (if display = .block then c!"p" else c!"span") ++ c!" class=\"" ++
      cls.getD c!"math-core-error" ++ c!"\" title=\"") (toMessage start msg latex) ++ c!"\">", t, _, ?_, h1, h2, rfl⟩
  unfold toHtml
  simp only [ht]
  cases display <;> simp

/-- A source with markup in it -/
example : Converts { plainConfig with annotation := true } c!"x<\\text{</b>}" .inline
    c!"<math><semantics><mrow><mi>x</mi><mo>&lt;</mo><mtext>&lt;/b&gt;</mtext></mrow><annotation encoding=\"application/x-tex\">x&lt;\\text{&lt;/b&gt;}</annotation></semantics></math>" :=
  converts_of 40 fun n => by kernel_rfl

example : toHtml 0 c!"m" c!"<b>&amp;" .inline none =
    c!"<span class=\"math-core-error\" title=\"0: m\"><code>&lt;b&gt;&amp;amp;</code></span>" := by decide +kernel

end Verif

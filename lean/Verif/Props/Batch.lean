import Verif.Lemmas.EmitRefs
import Verif.Props.Output
import Verif.Props.Pages
/-! Property C19: references in a batch. -/
namespace Verif
open Model Spec

namespace Spec

/-- What a snippet of a batch gives, where `labels` are the labels of the whole batch: a document for its syntax tree,
which contains the rows with tags `rows`, or an error. -/
def SnippetShown (config : MathCoreConfig) (labels : StrMap Str) (src : Str) (display : MathDisplay)
    (rows : List TaggedRow) : Outcome Out → Option (List Node) → Prop
  | .ok out, some ast => out = emitDocument (outputSettings config labels) ast src display ∧
      (tagsIn ast).Perm (rows.map TaggedRow.info)
  | .err _, none => True
  | _, _ => False

/-- A link to the row with this label -/
def linkTo (idPrefix label tag : Str) : Str :=
  c!"<mtext><a href=\"#" ++ idPrefix ++ percentEncode label ++ c!"\">(" ++ escapeHtml tag ++ c!")</a></mtext>"

/-- The text contains this text. -/
def Contains (text part : Str) : Prop := ∃ before after, text = before ++ part ++ after

end Spec

theorem parseAll_numbered {cfg : SnippetConfig} (hc : NewOk cfg.toParserConfig) (snippets : List (Str × MathDisplay))
    {g : GlobalState} (hg : StateOk cfg.toParserConfig g) :
    ∃ (n0 : Nat) (outs : List (Outcome (List Node))) (g' : GlobalState) (rows : List (List TaggedRow)),
      (∀ n, n0 ≤ n → Converter.parseAll n cfg g snippets = (outs, g')) ∧
      rows.length = snippets.length ∧
      Numbered ⟨g.equationCount, g.labelMap⟩ rows.flatten ⟨g'.equationCount, g'.labelMap⟩ ∧
      ∀ (i : Nat) r rw, outs[i]? = some r → rows[i]? = some rw →
        (match r with
          | .ok ast => (tagsIn ast).Perm (rw.map TaggedRow.info)
          | .err _ => True
          | .panic => False
          | .fuel => False) := by
  induction snippets generalizing g with
  | nil => exact ⟨0, [], g, [], fun _ _ => rfl, rfl, rfl, by simp⟩
  | cons s rest ih =>
    obtain ⟨latex, display⟩ := s
    obtain ⟨n1, r, hr, hok⟩ := parseSnippet_next cfg g latex display hc hg (sourceOk_nothing _)
    obtain ⟨n2, outs, g', rows, ho, hlen, hnum, hall⟩ := ih (hok.state hc hg)
    have key : ∃ rw, Numbered ⟨g.equationCount, g.labelMap⟩ rw ⟨(r.stateOr g).equationCount, (r.stateOr g).labelMap⟩ ∧
        (match r with
          | .ok ast _ => (tagsIn ast).Perm (rw.map TaggedRow.info)
          | .err _ _ => True
          | .panic => False
          | .fuel => False) := by
      cases r with
      | ok ast g1 =>
        obtain ⟨rw, h1, h2⟩ := hok.2.tags
        exact ⟨rw, h2, h1⟩
      | err e g1 =>
        obtain ⟨-, -, -, -, -, -, -, -, rw, h⟩ := hok.1
        exact ⟨rw, h, trivial⟩
      | panic => exact hok.elim
      | fuel => exact hok.elim
    obtain ⟨rw0, h0, h1⟩ := key
    refine ⟨max n1 n2, r.outcome :: outs, g', rw0 :: rows, fun n hn => ?_, by simp [hlen], numbered_append h0 hnum, ?_⟩
    · simp only [Converter.parseAll, hr n (Nat.le_trans (Nat.le_max_left ..) hn),
        ho n (Nat.le_trans (Nat.le_max_right ..) hn)]
    · intro i x rw hx hrw
      cases i with
      | zero =>
        simp only [List.getElem?_cons_zero, Option.some.injEq] at hx hrw
        subst hx hrw
        cases r with
        | ok ast g' => exact h1
        | err e g' => trivial
        | panic => exact h1
        | fuel => exact h1
      | succ i => exact hall i x rw (by simpa using hx) (by simpa using hrw)

theorem numbered_labels {rows : List TaggedRow} {c c' : Counters} (h : Numbered c rows c') :
    LabelsAfter (rows.map fun r => some r.info) c.labels c'.labels := by
  induction rows generalizing c with
  | nil => cases h; exact labelsAfter_nil _
  | cons r rs ih =>
    refine labelsAfter_append (rs := [some r.info]) ?_ (ih h.2)
    unfold Counters.after
    refine ⟨fun pre row post label heq hl hno => ?_, fun label hno => ?_⟩
    · cases pre with
      | nil => cases heq; simp [hl, get_insert]
      | cons p pre => simp at heq
    · cases hl : r.info.linkTarget with
      | none => rfl
      | some lb =>
        have := hno _ (.head _) _ rfl
        have hne : ¬ label = lb := by rintro rfl; exact this hl
        simp [get_insert, hne]

/-- C19. After any history, for all snippets, whether they are accepted or not: converting them as a batch gives one
result for each, in order, and leaves the converter as it is. All documents are written with the same labels: those of
the rows with tags of all snippets, where the rows of a snippet come after those of the snippets before it. The numbers
start with 1 and go on from snippet to snippet. A reference to a label, in any snippet, is shown as a link with the tag of
the row which has the label, in whichever snippet it is (the last such row, if there are several), or as a link with
question marks if there is none. -/
theorem C19_batch (config : MathCoreConfig) (c c1 c2 : Converter) (hc : Converter.new config = .ok c)
    (calls : List Call) (hr : Reaches c calls c1) (snippets : List (Str × MathDisplay)) (rs : List (Outcome Out))
    (h : Gives c1 (.all snippets) (.many rs) c2) :
    c2 = c1 ∧ rs.length = snippets.length ∧
    ∃ (count : Nat) (labels : StrMap Str) (rows : List (List TaggedRow)) (trees : List (Option (List Node))),
      rows.length = snippets.length ∧ trees.length = snippets.length ∧
      Numbered ⟨0, []⟩ rows.flatten ⟨count, labels⟩ ∧
      (∀ (i : Nat) src display rw r tree, snippets[i]? = some (src, display) → rows[i]? = some rw → rs[i]? = some r →
        trees[i]? = some tree → SnippetShown config labels src display rw r tree) ∧
      ∀ (i : Nat) (out : Out) (ast : List Node) (label : Str), rs[i]? = some (.ok out) → trees[i]? = some (some ast) →
        .eqRef label ∈ nodesInList ast →
        (∀ before row later, rows.flatten = before ++ row :: later → row.info.linkTarget = some label →
          (∀ r ∈ later, r.info.linkTarget ≠ some label) →
          Contains out.s (linkTo config.idPrefix label row.info.tag.text)) ∧
        ((∀ r ∈ rows.flatten, r.info.linkTarget ≠ some label) → Contains out.s (linkTo config.idPrefix label c!"??")) := by
  have hok := reaches_ok hr (.new hc)
  obtain ⟨hp, he⟩ := reaches_cfg hr
  obtain ⟨n0, outs, g', rows, ho, hlen, hnum, hall⟩ := parseAll_numbered hok.cfg snippets (g := {}) (.empty hok.cfg _ _)
  obtain ⟨n1, h⟩ := h
  have h := h (max n0 n1) (Nat.le_max_right ..)
  simp only [perform, Prod.mk.injEq, Reply.many.injEq] at h
  obtain ⟨rfl, rfl⟩ := h
  have hlen2 : outs.length = snippets.length := by
    have := (parseAll_spec (max n0 n1) c1.parserCfg snippets {}).2.1
    rwa [ho _ (Nat.le_max_left ..)] at this
  have hshown : ∀ (i : Nat) src display rw r tree, snippets[i]? = some (src, display) → rows[i]? = some rw →
      (c1.convertAll (max n0 n1) snippets)[i]? = some r →
      (outs.map fun (x : Outcome (List Node)) => match x with | .ok ast => some ast | _ => none)[i]? = some tree →
      SnippetShown config g'.labelMap src display rw r tree := by
    intro i src display rw r tree hs hrw hri ht
    simp only [Converter.convertAll, ho _ (Nat.le_max_left ..), List.getElem?_zipWith, hs] at hri
    rw [List.getElem?_map, Option.map_eq_some_iff] at ht
    obtain ⟨x, hx, ht⟩ := ht
    rw [hx] at hri
    have := hall i x rw hx hrw
    simp only [Option.some.injEq] at hri
    subst hri
    cases x with
    | ok ast =>
      subst ht
      refine ⟨?_, this⟩
      rw [he]
      exact congrArg (emitDocument · ast src display) (new_emitter hc _)
    | err e => subst ht; trivial
    | panic => exact this.elim
    | fuel => exact this.elim
  refine ⟨rfl, C19_length .., g'.equationCount, g'.labelMap, rows,
    outs.map fun (x : Outcome (List Node)) => match x with | .ok ast => some ast | _ => none,
    hlen, by simpa using hlen2, hnum, hshown, ?_⟩
  intro i out ast label hout htree href
  have hi : i < snippets.length := by
    obtain ⟨h1, -⟩ := List.getElem?_eq_some_iff.1 htree
    simpa [hlen2] using h1
  have hs := hshown i snippets[i].1 snippets[i].2 (rows[i]'(by omega)) _ _ (List.getElem?_eq_getElem hi)
    (List.getElem?_eq_getElem _) hout htree
  obtain ⟨a, b, hab⟩ := emitDocument_shows (outputSettings config g'.labelMap) ast snippets[i].1 snippets[i].2 label href
  rw [← hs.1] at hab
  have hl := numbered_labels hnum
  have hget : ∀ tag, (g'.labelMap.get label).getD c!"??" = tag → Contains out.s (linkTo config.idPrefix label tag) := by
    intro tag ht
    refine ⟨a, b, ?_⟩
    rw [hab, ← ht]
    rfl
  refine ⟨fun before row later heq hrow hno => ?_, fun hno => ?_⟩
  · refine hget _ ?_
    have := hl.1 (before.map fun r => some r.info) row.info (later.map fun r => some r.info) label
      (by rw [heq]; simp) hrow (by
        intro r hr i hi
        obtain ⟨r', hr', rfl⟩ := List.mem_map.1 hr
        cases hi
        exact hno r' hr')
    rw [this]; rfl
  · refine hget _ ?_
    have := hl.2 label (by
        intro r hr i hi
        obtain ⟨r', hr', rfl⟩ := List.mem_map.1 hr
        cases hi
        exact hno r' hr')
    rw [this]; rfl

/-! ### An example: a reference to a later snippet, with an error in between -/

example : Replies plainConfig
    [.all [(c!"\\eqref{a}\\eqref{b}", .inline), (c!"x_", .inline), (c!"\\begin{gather}x\\label{a}\\end{gather}", .block)]]
    [[.text c!"<math><mtext><a href=\"#a\">(1)</a></mtext><mtext><a href=\"#b\">(??)</a></mtext></math>",
      .error .expectedArgumentGotEOI,
      .text c!"<math display=\"block\"><mtable displaystyle=\"true\" scriptlevel=\"0\" style=\"width: 100%\"><mtr><mtd style=\"width: 50%\"></mtd><mtd><mi>x</mi></mtd><mtd style=\"width: 50%;text-align: right;justify-items: end;\" id=\"a\"><mtext>(1)</mtext></mtd></mtr></mtable></math>"]] :=
  replies_of 60 fun n => by kernel_rfl

end Verif

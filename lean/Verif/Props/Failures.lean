import Verif.Props.Output
import Verif.Props.Sessions
import Verif.Lemmas.Witness
/-! C47: what a conversion which fails leaves behind. -/
namespace Verif
open Model Spec

/-! ### A conversion with global state which fails leaves traces -/

/-- C47 does not hold for the definitions: a snippet which fails has defined `\a` for the later ones, … -/
theorem C47_definition_stays : Replies plainConfig
    [.withGlobalState c!"\\gdef\\a{x}}" .inline, .withGlobalState c!"\\a" .inline]
    [[.error (.unmatchedClose .groupClose)], [.text c!"<math><mi>x</mi></math>"]] :=
  replies_of 60 fun n => by kernel_rfl

/-- … without it, `\a` is unknown. -/
theorem C47_definition_stays' : Replies plainConfig [.withGlobalState c!"\\a" .inline]
    [[.error (.unknownCommand c!"a")]] :=
  replies_of 60 fun n => by kernel_rfl

/-- C47 does not hold for the numbers and labels: the numbers which a snippet has used before it fails are missing in
the later ones, and there are links to equations which are nowhere in the output. -/
theorem C47_number_and_label_stay : Replies plainConfig
    [.withGlobalState c!"\\begin{gather}a\\label{k}\\\\ \\x\\end{gather}" .block, .withGlobalState c!"\\eqref{k}" .inline,
      .withGlobalState c!"\\begin{gather}b\\end{gather}" .inline]
    [[.error (.unknownCommand c!"x")], [.text c!"<math><mtext><a href=\"#k\">(1)</a></mtext></math>"],
      [.text c!"<math><mtable displaystyle=\"true\" scriptlevel=\"0\" style=\"width: 100%\"><mtr><mtd style=\"width: 50%\"></mtd><mtd><mi>b</mi></mtd><mtd style=\"width: 50%;text-align: right;justify-items: end;\"><mtext>(2)</mtext></mtd></mtr></mtable></math>"]] :=
  replies_of 60 fun n => by kernel_rfl

/-! ### What a conversion never does -/

theorem numbered_grows {rows : List TaggedRow} : ∀ {c c' : Counters}, Numbered c rows c' →
    c.count ≤ c'.count ∧ ∀ l, (c.labels.get l).isSome → (c'.labels.get l).isSome := by
  induction rows with
  | nil => intro c c' h; cases h; exact ⟨Nat.le_refl _, fun _ h => h⟩
  | cons r rows ih =>
    intro c c' h
    obtain ⟨h1, h2⟩ := ih h.2
    refine ⟨Nat.le_trans ?_ h1, fun l hl => h2 l ?_⟩
    · unfold Counters.after
      dsimp only
      split <;> omega
    · unfold Counters.after
      dsimp only
      split
      · rw [get_insert]
        split
        · rfl
        · exact hl
      · exact hl

/-- C47, what remains true. After any history, whether a conversion with global state succeeds or fails: the
configuration is the same as before, no number is used a second time, no label is forgotten, and a name which the snippet
does not define globally means what it meant before.
What is missing: that a conversion which fails changes nothing at all, which is false (`C47_definition_stays`,
`C47_number_and_label_stay`). -/
theorem C47_nothing_lost_partial (config : MathCoreConfig) (c c1 c2 : Converter) (hc : Converter.new config = .ok c)
    (calls : List Call) (hr : Reaches c calls c1) (src : Str) (display : MathDisplay) (r : Reply)
    (h : Gives c1 (.withGlobalState src display) r c2) :
    c2.parserCfg = c1.parserCfg ∧ c2.emitterCfg = c1.emitterCfg ∧
    c1.state.equationCount ≤ c2.state.equationCount ∧
    (∀ l, (c1.state.labelMap.get l).isSome → (c2.state.labelMap.get l).isSome) ∧
    ∃ ops : List DefOp, (∀ op ∈ ops, DefOp.withinSnippet op) ∧
      ∀ name, (∀ op ∈ ops, ¬ op.definesGlobally name) → ∀ k, meaningFor c2 k name = meaningFor c1 k name := by
  obtain ⟨ops, s', h1, -, -, h4⟩ := C11_conversion config c c1 c2 hc calls hr src display r h
  obtain ⟨-, -, -, -, -, -, -, -, rows, hn⟩ := conversion_done (reaches_ok hr (.new hc)) (sourceOk_nothing _) h
  have hg := numbered_grows hn
  have hcfg : c2.parserCfg = c1.parserCfg ∧ c2.emitterCfg = c1.emitterCfg := by
    obtain ⟨n, h⟩ := h
    have := perform_cfg n c1 (.withGlobalState src display)
    rw [h n (Nat.le_refl _)] at this
    exact this
  exact ⟨hcfg.1, hcfg.2, hg.1, hg.2, ops, h1, h4⟩

/-- C47. A conversion with local state and a batch change nothing, whether they succeed or fail. -/
theorem C47_local (c c' : Converter) (call : Call) (hcall : call.isGlobal = false) (r : Reply) (h : Gives c call r c') :
    c' = c := by
  obtain ⟨n, h⟩ := h
  have h := h n (Nat.le_refl _)
  cases call with
  | withLocalState latex display => simp only [perform, Prod.mk.injEq] at h; exact h.2.symm
  | all snippets => simp only [perform, Prod.mk.injEq] at h; exact h.2.symm
  | withGlobalState latex display => cases hcall
  | reset => cases hcall

/-- There are conversions with local state which fail. -/
example : Rejects plainConfig c!"\\gdef\\a{x}}" .inline (.unmatchedClose .groupClose) :=
  rejects_of 60 fun n => by kernel_rfl

end Verif

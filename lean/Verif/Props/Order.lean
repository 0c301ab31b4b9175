import Verif.Props.Cli
import Verif.Props.Findings
/-!
C50. In recursive mode a file should be converted as if it were the only one. This is false: the CLI has one converter
for all files, so that numbers and definitions go on from file to file, in the order of the directory.
-/
namespace Verif
open Model Spec

/-- The CLI with the real converter over two files: what the second one holds afterwards, if the first one is visited
before it (`both`), or not. -/
def secondFile (n : Nat) (both : Bool) (first second : Str) : Contents :=
  match Converter.new plainConfig with
  | .error _ => .unreadable
  | .ok c =>
    ((cliWith n dollars).convertHtmlRecursive
      (.dir true (if both then [.file c!"a.html" true, .file c!"b.html" true] else [.file c!"b.html" true]))
      ⟨c, fun p => if p = c!"a.html" then .text first else if p = c!"b.html" then .text second else .unreadable, []⟩).1.files
      c!"b.html"

/-- C50 is false for numbers: the equation of the second file has the number 2 or 1, depending on whether there is
another file before it. -/
theorem C50_numbers (n : Nat) :
    secondFile (n + 80) false c!"$\\begin{align}y\\end{align}$" c!"$\\begin{align}x\\end{align}$" ≠
      secondFile (n + 80) true c!"$\\begin{align}y\\end{align}$" c!"$\\begin{align}x\\end{align}$" := by
  have h : decide (secondFile (n + 80) false c!"$\\begin{align}y\\end{align}$" c!"$\\begin{align}x\\end{align}$" =
      secondFile (n + 80) true c!"$\\begin{align}y\\end{align}$" c!"$\\begin{align}x\\end{align}$") = false := by
    kernel_rfl
  exact of_decide_eq_false h

/-- C50 is false for definitions: a file can be converted only because there is another file before it. -/
theorem C50_definitions (n : Nat) :
    secondFile (n + 80) false c!"$\\gdef\\a{1}$" c!"$\\a$" = .text c!"$\\a$" ∧
    secondFile (n + 80) true c!"$\\gdef\\a{1}$" c!"$\\a$" = .text c!"<math><mn>1</mn></math>" :=
  ⟨by kernel_rfl, by kernel_rfl⟩

section
variable {S E : Type}

theorem convertHtml_congr (cli : Cli S E) (p : Path) (w w' : World S) (hs : w'.st = w.st)
    (hf : w'.files p = w.files p) :
    (cli.convertHtml p true w').1.files p = (cli.convertHtml p true w).1.files p ∧
    (cli.convertHtml p true w').1.st = (cli.convertHtml p true w).1.st ∧
    (cli.convertHtml p true w').2 = (cli.convertHtml p true w).2 := by
  unfold Cli.convertHtml
  rw [hs, hf]
  cases hd : w.files p with
  | unreadable => exact ⟨hf.trans hd |>.trans hd.symm, hs, rfl⟩
  | truncated => exact ⟨hf.trans hd |>.trans hd.symm, hs, rfl⟩
  | text original =>
    dsimp only
    cases cli.replace original w.st with
    | mk st r =>
      cases r with
      | err => exact ⟨hf, rfl, rfl⟩
      | panic => exact ⟨hf, rfl, rfl⟩
      | ok converted =>
        dsimp only
        repeat' split
        all_goals first | exact ⟨hf, rfl, rfl⟩ | exact ⟨by simp only [setFile, if_pos], rfl, rfl⟩

theorem convertHtml_st (cli : Cli S E) (p : Path) (w : World S)
    (h : ∀ doc, w.files p = .text doc → (cli.replace doc w.st).1 = w.st) : (cli.convertHtml p true w).1.st = w.st := by
  unfold Cli.convertHtml
  cases hd : w.files p with
  | unreadable => rfl
  | truncated => rfl
  | text original =>
    have := h original hd
    dsimp only
    cases hr : cli.replace original w.st with
    | mk st r =>
      rw [hr] at this
      cases r with
      | err => exact this
      | panic => exact this
      | ok converted =>
        dsimp only
        repeat' split
        all_goals exact this

theorem visit_alone (cli : Cli S E) (w0 : World S) (ps : List (Option Path)) (w : World S) (hn : ps.Nodup)
    (hst : w.st = w0.st) (hfiles : ∀ p, some p ∈ ps → w.files p = w0.files p)
    (hstable : ∀ p doc, some p ∈ ps → w0.files p = .text doc → (cli.replace doc w0.st).1 = w0.st)
    (h : (visit cli ps w).2 = none) (p : Path) (hp : some p ∈ ps) :
    (visit cli ps w).1.files p = (cli.convertHtml p true w0).1.files p := by
  induction ps generalizing w with
  | nil => simp at hp
  | cons x ps ih =>
    cases x with
    | none => cases h
    | some q =>
      obtain ⟨hq, hn⟩ := List.nodup_cons.1 hn
      simp only [visit] at h ⊢
      have hc := convertHtml_congr cli q w0 w hst (hfiles q List.mem_cons_self)
      have ho := (convertHtml_files cli q true w).1
      have hs := convertHtml_st cli q w0 fun doc => hstable q doc List.mem_cons_self
      cases hx : cli.convertHtml q true w with
      | mk w' e =>
        rw [hx] at h hc ho
        cases e with
        | some e => cases h
        | none =>
          simp only [andThen] at h ⊢
          rcases List.mem_cons.1 hp with hp | hp
          · cases hp
            rw [visit_others cli ps w' p hq]
            exact hc.1
          · refine ih w' hn (hc.2.1.trans hs) ?_ (fun p doc hp => hstable p doc (List.mem_cons_of_mem _ hp)) h hp
            intro p hp
            rw [← hfiles p (List.mem_cons_of_mem _ hp)]
            exact ho p fun e => hq (e ▸ hp)

/-- C50, as far as it holds: if the formulas of the files number nothing and define nothing globally (so that each
document leaves the converter as it was), then after a run every file is as if it had been converted alone. -/
theorem C50_alone_partial (cli : Cli S E) (t : Tree) (w : World S) (hn : (htmlFiles t).Nodup)
    (hstable : ∀ p doc, some p ∈ htmlFiles t → w.files p = .text doc → (cli.replace doc w.st).1 = w.st)
    (h : (cli.convertHtmlRecursive t w).2 = none) (p : Path) (hp : some p ∈ htmlFiles t) :
    (cli.convertHtmlRecursive t w).1.files p = (cli.convertHtml p true w).1.files p := by
  rw [recursive_visit] at h ⊢
  exact visit_alone cli w _ w hn rfl (fun _ _ => rfl) hstable h p hp

end

/-- A document which leaves the converter as it was -/
example : (match Converter.new plainConfig with
    | .error _ => False
    | .ok c => ((cliWith 80 dollars).replace c!"<b>$x^2$</b>" c).1 = c ∧
        ((cliWith 80 dollars).replace c!"<b>$x^2$</b>" c).2 =
          .ok c!"<b><math><msup><mi>x</mi><mn>2</mn></msup></math></b>") :=
  ⟨by kernel_rfl, by kernel_rfl⟩

end Verif

import Verif.Model.Cli
import Verif.Props.Replace
/-! Property C34: what the CLI writes. -/
namespace Verif
open Model Spec

namespace Spec
mutual
/-- The HTML files below a path in the order in which they are visited; `none` is a directory which
cannot be listed. -/
def htmlFiles : Tree → List (Option Path)
  | .dir listable entries => if listable then htmlFilesOf entries else [none]
  | .file path isHtml => if isHtml then [some path] else []
  | .other => []
def htmlFilesOf : List Tree → List (Option Path)
  | [] => []
  | t :: ts => htmlFiles t ++ htmlFilesOf ts
end

/-- The converter turns the document `original` into `converted`, in some state. -/
def ConvertsTo {S E : Type} (cli : Cli S E) (original converted : Str) : Prop :=
  ∃ st st', cli.replace original st = (st', .ok converted)
end Spec

/-- Visit files one after another. -/
def visit {S E : Type} (cli : Cli S E) : List (Option Path) → World S → World S × Option Exit
  | [], w => (w, none)
  | none :: _, w => (w, some .io)
  | some p :: rest, w => andThen (cli.convertHtml p true w) (visit cli rest)

theorem visit_append {S E : Type} (cli : Cli S E) (a b : List (Option Path)) (w : World S) :
    visit cli (a ++ b) w = andThen (visit cli a w) (visit cli b) := by
  induction a generalizing w with
  | nil => rfl
  | cons x a ih =>
    cases x with
    | none => rfl
    | some p =>
      simp only [List.cons_append, visit]
      cases h : cli.convertHtml p true w with
      | mk w' e =>
        cases e with
        | none => simp only [andThen]; exact ih w'
        | some e => rfl

mutual
theorem recursive_visit {S E : Type} (cli : Cli S E) (t : Tree) (w : World S) :
    cli.convertHtmlRecursive t w = visit cli (htmlFiles t) w := by
  match t with
  | .dir false es => simp [Cli.convertHtmlRecursive, htmlFiles, visit]
  | .dir true es =>
    simp only [Cli.convertHtmlRecursive, htmlFiles, Bool.not_true, Bool.false_eq_true, if_false, if_true]
    exact entries_visit cli es w
  | .file p true =>
    simp only [Cli.convertHtmlRecursive, htmlFiles, if_true, visit]
    cases cli.convertHtml p true w with
    | mk w' e => cases e <;> rfl
  | .file p false => simp [Cli.convertHtmlRecursive, htmlFiles, visit]
  | .other => simp [Cli.convertHtmlRecursive, htmlFiles, visit]
theorem entries_visit {S E : Type} (cli : Cli S E) (ts : List Tree) (w : World S) :
    cli.convertEntries ts w = visit cli (htmlFilesOf ts) w := by
  match ts with
  | [] => simp [Cli.convertEntries, htmlFilesOf, visit]
  | t :: ts =>
    simp only [Cli.convertEntries, htmlFilesOf]
    rw [visit_append, recursive_visit cli t w]
    cases visit cli (htmlFiles t) w with
    | mk w' e =>
      cases e with
      | none => exact entries_visit cli ts w'
      | some e => rfl
end

/-- What one file looks like after it was visited. -/
theorem convertHtml_files {S E : Type} (cli : Cli S E) (fp : Path) (write : Bool) (w : World S) :
    (∀ p, p ≠ fp → (cli.convertHtml fp write w).1.files p = w.files p) ∧
    ((cli.convertHtml fp write w).1.files fp = w.files fp ∨
      ∃ original converted, w.files fp = .text original ∧ ConvertsTo cli original converted ∧
        original ≠ converted ∧ write = true ∧ cli.args.dryRun = false ∧
        ((cli.write fp = .done ∧ (cli.convertHtml fp write w).1.files fp = .text converted) ∨
          ∃ n, cli.write fp = .stops n ∧ (cli.convertHtml fp write w).2 = some .io ∧
            (cli.convertHtml fp write w).1.files fp = .truncated converted n)) := by
  unfold Cli.convertHtml
  cases hf : w.files fp with
  | unreadable => exact ⟨fun _ _ => rfl, Or.inl hf⟩
  | truncated => exact ⟨fun _ _ => rfl, Or.inl hf⟩
  | text original =>
    simp only
    cases hr : cli.replace original w.st with
    | mk st res =>
      cases res with
      | err => exact ⟨fun _ _ => rfl, Or.inl hf⟩
      | panic => exact ⟨fun _ _ => rfl, Or.inl hf⟩
      | ok converted =>
        simp only
        by_cases hd : cli.args.dryRun = true
        · rw [if_pos hd]; exact ⟨fun _ _ => rfl, Or.inl hf⟩
        · rw [if_neg hd]
          simp only [Bool.not_eq_true] at hd
          cases write with
          | false => exact ⟨fun _ _ => rfl, Or.inl hf⟩
          | true =>
            simp only [if_true]
            by_cases hc : original ≠ converted
            · rw [if_pos hc]
              cases hw : cli.write fp with
              | createFails => exact ⟨fun _ _ => rfl, Or.inl hf⟩
              | done =>
                refine ⟨fun p hp => by simp [setFile, hp], Or.inr ⟨original, converted, rfl, ⟨_, _, hr⟩, hc, trivial, hd,
                  Or.inl ⟨rfl, by simp [setFile]⟩⟩⟩
              | stops n =>
                refine ⟨fun p hp => by simp [setFile, hp], Or.inr ⟨original, converted, rfl, ⟨_, _, hr⟩, hc, trivial, hd,
                  Or.inr ⟨n, rfl, rfl, by simp [setFile]⟩⟩⟩
            · rw [if_neg hc]; exact ⟨fun _ _ => rfl, Or.inl hf⟩

/-- If visiting a file does not end the run, its document was converted. -/
theorem convertHtml_done {S E : Type} (cli : Cli S E) (p : Path) (w : World S)
    (h : (cli.convertHtml p true w).2 = none) :
    ∃ original converted, w.files p = .text original ∧ ConvertsTo cli original converted ∧
      (cli.convertHtml p true w).1.files p = .text (if cli.args.dryRun then original else converted) := by
  cases hx : cli.convertHtml p true w with
  | mk w' e =>
    rw [hx] at h
    simp only at h ⊢
    subst h
    simp only [Cli.convertHtml] at hx
    cases ho : w.files p with
    | unreadable => rw [ho] at hx; simp at hx
    | truncated => rw [ho] at hx; simp at hx
    | text o =>
      rw [ho] at hx
      simp only at hx
      cases hr : cli.replace o w.st with
      | mk st res =>
        cases res with
        | err => simp [hr] at hx
        | panic => simp [hr] at hx
        | ok c =>
          refine ⟨o, c, rfl, ⟨_, _, hr⟩, ?_⟩
          simp only [hr] at hx
          by_cases hd : cli.args.dryRun = true
          · rw [if_pos hd] at hx ⊢
            simp at hx
            rw [← hx]; exact ho
          · rw [if_neg hd] at hx ⊢
            by_cases hoc : o ≠ c
            · simp only [if_true, if_pos hoc] at hx
              cases hw : cli.write p with
              | createFails => simp [hw] at hx
              | stops n => simp [hw] at hx
              | done => simp [hw] at hx; rw [← hx]; simp [setFile]
            · simp only [if_true, if_neg hoc] at hx
              simp at hx hoc
              rw [← hx, ← hoc]; exact ho

theorem visit_others {S E : Type} (cli : Cli S E) (ps : List (Option Path)) (w : World S) (p : Path)
    (hp : some p ∉ ps) : (visit cli ps w).1.files p = w.files p := by
  induction ps generalizing w with
  | nil => rfl
  | cons x ps ih =>
    cases x with
    | none => rfl
    | some q =>
      have hq : p ≠ q := fun h => hp (by simp [h])
      have hp' : some p ∉ ps := fun h => hp (List.mem_cons_of_mem _ h)
      have h1 := (convertHtml_files cli q true w).1 p hq
      simp only [visit]
      cases h : cli.convertHtml q true w with
      | mk w' e =>
        rw [h] at h1
        cases e with
        | none => simp only [andThen]; rw [ih w' hp', h1]
        | some e => exact h1

/-- C34, recursive mode: after a run over any tree, whatever happened, a file has the contents it had,
or it is an HTML file of the tree, the run is not a dry run, its document could be converted,
and it now holds exactly the converted document, unless the operating system failed to write it. -/
theorem C34_contents {S E : Type} (cli : Cli S E) (t : Tree) (w : World S)
    (hn : (htmlFiles t).Nodup) (p : Path) :
    (cli.convertHtmlRecursive t w).1.files p = w.files p ∨
      some p ∈ htmlFiles t ∧ cli.args.dryRun = false ∧
      ∃ original converted, w.files p = .text original ∧ ConvertsTo cli original converted ∧
        original ≠ converted ∧
        ((cli.convertHtmlRecursive t w).1.files p = .text converted ∨
          ∃ n, cli.write p = .stops n ∧ (cli.convertHtmlRecursive t w).2 = some .io ∧
            (cli.convertHtmlRecursive t w).1.files p = .truncated converted n) := by
  rw [recursive_visit]
  generalize htmlFiles t = ps at *
  induction ps generalizing w with
  | nil => exact Or.inl rfl
  | cons x ps ih =>
    cases x with
    | none => exact Or.inl rfl
    | some q =>
      obtain ⟨hq, hn⟩ := List.nodup_cons.1 hn
      simp only [visit]
      have hc := convertHtml_files cli q true w
      cases h : cli.convertHtml q true w with
      | mk w' e =>
        rw [h] at hc
        by_cases hpq : p = q
        · subst hpq
          have hlast : (andThen (w', e) (visit cli ps)).1.files p = w'.files p := by
            cases e with
            | none => exact visit_others cli ps w' p hq
            | some e => rfl
          rw [hlast]
          rcases hc.2 with h1 | ⟨o, c, h1, h2, h3, h4, h5, h6⟩
          · exact Or.inl h1
          · refine Or.inr ⟨by simp, h5, o, c, h1, h2, h3, ?_⟩
            rcases h6 with ⟨h6, h7⟩ | ⟨n, h6, h7, h8⟩
            · exact Or.inl h7
            · simp only at h7 h8
              subst h7
              exact Or.inr ⟨n, h6, rfl, h8⟩
        · have hw := hc.1 p hpq
          simp only at hw
          cases e with
          | some e => exact Or.inl hw
          | none =>
            simp only [andThen]
            rw [← hw]
            rcases ih w' hn with h1 | ⟨h1, h2⟩
            · exact Or.inl h1
            · exact Or.inr ⟨List.mem_cons_of_mem _ h1, h2⟩

/-- C34: a run which ends early ended at one of the files (or directories). The files after it are
untouched; so is that file, unless the operating system failed while writing it; all files before it
were converted. -/
theorem C34_stop {S E : Type} (cli : Cli S E) (t : Tree) (w : World S) (hn : (htmlFiles t).Nodup)
    (exit : Exit) (h : (cli.convertHtmlRecursive t w).2 = some exit) :
    ∃ before q after, htmlFiles t = before ++ q :: after ∧
      (∀ p, some p ∈ after → (cli.convertHtmlRecursive t w).1.files p = w.files p) ∧
      (∀ p, q = some p → exit ≠ .io → (cli.convertHtmlRecursive t w).1.files p = w.files p) ∧
      (∀ p, some p ∈ before → ∃ original converted, w.files p = .text original ∧
        ConvertsTo cli original converted ∧ (cli.convertHtmlRecursive t w).1.files p =
          .text (if cli.args.dryRun then original else converted)) := by
  rw [recursive_visit] at h ⊢
  generalize htmlFiles t = ps at *
  induction ps generalizing w with
  | nil => cases h
  | cons x ps ih =>
    cases x with
    | none => exact ⟨[], none, ps, rfl, fun _ _ => rfl, nofun, nofun⟩
    | some q =>
      obtain ⟨hq, hn⟩ := List.nodup_cons.1 hn
      have hc := convertHtml_files cli q true w
      simp only [visit] at h ⊢
      cases hx : cli.convertHtml q true w with
      | mk w' e =>
        rw [hx] at hc h
        cases e with
        | some e =>
          simp only [andThen] at h ⊢
          have he : e = exit := by simpa using h
          subst he
          refine ⟨[], some q, ps, rfl, ?_, ?_, nofun⟩
          · intro p hp
            exact hc.1 p (fun e => hq (e ▸ hp))
          · intro p hp hio
            cases hp
            rcases hc.2 with h1 | ⟨o, c, h1, h2, h3, h4, h5, ⟨h6, h7⟩ | ⟨n, h6, h7, h8⟩⟩
            · exact h1
            · exfalso
              simp only [Cli.convertHtml, h1] at hx
              cases hr : cli.replace o w.st with
              | mk st res =>
                cases res with
                | ok c' =>
                  simp only [hr, h5, h6] at hx
                  by_cases hcc : o ≠ c' <;> simp [hcc] at hx
                | err => simp [hr] at hx; rw [← hx.1] at h7; simp only at h7; rw [h1] at h7; simp at h7; exact h3 h7
                | panic => simp [hr] at hx; rw [← hx.1] at h7; simp only at h7; rw [h1] at h7; simp at h7; exact h3 h7
            · simp only at h7; cases h7; exact absurd rfl hio
        | none =>
          simp only [andThen] at h ⊢
          obtain ⟨before, q', after, h1, h2, h3, h4⟩ := ih w' hn h
          have hmem : ∀ {p}, some p ∈ ps → p ≠ q := fun hp e => hq (e ▸ hp)
          refine ⟨some q :: before, q', after, by rw [h1]; rfl, ?_, ?_, ?_⟩
          · intro p hp
            rw [h2 p hp]
            exact hc.1 p (hmem (by rw [h1]; simp [hp]))
          · intro p hp hio
            rw [h3 p hp hio]
            exact hc.1 p (hmem (by rw [h1]; simp [hp]))
          · intro p hp
            rcases List.mem_cons.1 hp with hp | hp
            · cases hp
              rw [visit_others cli ps w' q hq]
              have := convertHtml_done cli q w (by rw [hx])
              rwa [hx] at this
            · have := h4 p hp
              rwa [hc.1 p (hmem (by rw [h1]; simp [hp]))] at this

/-- C34: a run which does not end early has converted every HTML file of the tree (or, on a dry run,
checked that it could). -/
theorem C34_complete {S E : Type} (cli : Cli S E) (t : Tree) (w : World S) (hn : (htmlFiles t).Nodup)
    (h : (cli.convertHtmlRecursive t w).2 = none) (p : Path) (hp : some p ∈ htmlFiles t) :
    ∃ original converted, w.files p = .text original ∧ ConvertsTo cli original converted ∧
      (cli.convertHtmlRecursive t w).1.files p =
        .text (if cli.args.dryRun then original else converted) := by
  rw [recursive_visit] at h ⊢
  generalize htmlFiles t = ps at *
  induction ps generalizing w with
  | nil => simp at hp
  | cons x ps ih =>
    cases x with
    | none => cases h
    | some q =>
      obtain ⟨hq, hn⟩ := List.nodup_cons.1 hn
      have hc := convertHtml_files cli q true w
      have hdone := convertHtml_done cli q w
      simp only [visit] at h ⊢
      cases hx : cli.convertHtml q true w with
      | mk w' e =>
        rw [hx] at hc h hdone
        cases e with
        | some e => cases h
        | none =>
          simp only [andThen] at h ⊢
          rcases List.mem_cons.1 hp with hp | hp
          · cases hp
            rw [visit_others cli ps w' p hq]
            exact hdone rfl
          · have := ih w' hn h hp
            rwa [hc.1 p (fun e => hq (e ▸ hp))] at this

/-- C34: a dry run changes no file and prints nothing, whatever happens. -/
theorem C34_dry_run {S E : Type} (cli : Cli S E) (hd : cli.args.dryRun = true) (t : Tree) (w : World S) :
    (cli.convertHtmlRecursive t w).1.files = w.files ∧ (cli.convertHtmlRecursive t w).1.stdout = w.stdout := by
  have one : ∀ p write w, (cli.convertHtml p write w).1.files = w.files ∧
      (cli.convertHtml p write w).1.stdout = w.stdout := by
    intro p write w
    unfold Cli.convertHtml
    split
    · split
      · exact ⟨rfl, rfl⟩
      · exact ⟨rfl, rfl⟩
      · rw [if_pos hd]; exact ⟨rfl, rfl⟩
    · exact ⟨rfl, rfl⟩
  rw [recursive_visit]
  generalize htmlFiles t = ps
  induction ps generalizing w with
  | nil => exact ⟨rfl, rfl⟩
  | cons x ps ih =>
    cases x with
    | none => exact ⟨rfl, rfl⟩
    | some q =>
      have h1 := one q true w
      simp only [visit]
      cases hx : cli.convertHtml q true w with
      | mk w' e =>
        rw [hx] at h1
        cases e with
        | some e => exact h1
        | none => simp only [andThen]; rw [(ih w').1, (ih w').2]; exact h1

/-- C34, one file: a failed conversion changes nothing and prints nothing. -/
theorem C34_failure {S E : Type} (cli : Cli S E) (fp : Path) (write : Bool) (w : World S)
    (h : (cli.convertHtml fp write w).2 = some .conversion ∨ (cli.convertHtml fp write w).2 = some .panic) :
    (cli.convertHtml fp write w).1.files = w.files ∧ (cli.convertHtml fp write w).1.stdout = w.stdout := by
  revert h
  unfold Cli.convertHtml
  intro h
  split at h
  · split at h
    · rename_i hf _ _ _ hr; simp [hr]
    · rename_i hf _ _ hr; simp [hr]
    · simp at h
      repeat' split at h
      all_goals simp at h
  · simp at h

/-- C34, one file without `--write`: no file is changed, and the converted document is printed exactly
if the conversion succeeds and this is not a dry run. -/
theorem C34_print {S E : Type} (cli : Cli S E) (fp : Path) (w : World S) :
    (cli.convertHtml fp false w).1.files = w.files ∧
      ((cli.convertHtml fp false w).2 = none → ∃ original converted, w.files fp = .text original ∧
        (cli.replace original w.st).2 = .ok converted ∧
        (cli.convertHtml fp false w).1.stdout = w.stdout ++ (if cli.args.dryRun then [] else converted)) ∧
      ((cli.convertHtml fp false w).2 ≠ none → (cli.convertHtml fp false w).1.stdout = w.stdout) := by
  unfold Cli.convertHtml
  cases hf : w.files fp with
  | unreadable => simp
  | truncated => simp
  | text original =>
    simp only
    cases hr : cli.replace original w.st with
    | mk st res =>
      cases res with
      | err => simp
      | panic => simp
      | ok c => cases hd : cli.args.dryRun <;> simp [hr]

/-- With `--continue-on-error` a formula which cannot be converted does not stop the run: it is shown
as an error, and the CLI stops only because of delimiters. -/
theorem C30_continue {S E : Type} (cli : Cli S E) (hc : cli.args.continueOnError = true) (doc : Str) (st : S) :
    (cli.replace doc st).2 ≠ .panic ∧
      ∀ pos e snippet, (cli.replace doc st).2 ≠ .err (.latexError pos e snippet) := by
  have hcb : ∀ st latex d st' e, cli.callback st latex d ≠ (st', .error e) := by
    intro st latex d st' e h
    unfold Cli.callback at h
    split at h
    · cases h
    · rw [if_pos hc] at h; cases h
  have key : ∀ pos st doc st' res, Processed cli.replacer cli.callback pos st doc st' res →
      res ≠ .panic ∧ ∀ pos e snippet, res ≠ .err (.latexError pos e snippet) := by
    intro pos st doc st' res h
    induction h with
    | crash _ _ _ _ h1 => exact absurd h1 (hcb _ _ _ _ _)
    | failed _ _ _ _ h1 => exact absurd h1 (hcb _ _ _ _ _)
    | @formula _ _ _ _ _ _ _ _ _ _ res _ _ _ _ _ _ ih => cases res <;> simp_all
    | _ => exact ⟨nofun, nofun⟩
  unfold Cli.replace
  by_cases hd : doc = []
  · subst hd; rw [C30_empty]; exact ⟨nofun, nofun⟩
  · exact key _ _ _ _ _ (C33_outcome _ _ doc st (Or.inl hd))

/-! ### Examples -/

/-- A run over three files whose second one cannot be converted. -/
def demoCli : Cli Nat Nat := ⟨counting, fun _ _ _ => c!"?", dollars, ⟨false, false⟩, fun _ => .done⟩
def demoWorld : World Nat :=
  ⟨0, fun p => if p = c!"a" then .text c!"$x$" else if p = c!"b" then .text c!"$y$ $" else .text c!"$z$", []⟩
def demoTree : Tree :=
  .dir true [.file c!"a" true, .dir true [.file c!"n" false, .file c!"b" true], .file c!"c" true]

example : htmlFiles demoTree = [some c!"a", some c!"b", some c!"c"] := by decide +kernel
example : (demoCli.convertHtmlRecursive demoTree demoWorld).2 = some .conversion ∧
    [c!"a", c!"b", c!"c"].map (demoCli.convertHtmlRecursive demoTree demoWorld).1.files =
      [.text c!"<x>", .text c!"$y$ $", .text c!"$z$"] := by decide +kernel
/-- Writing is not atomic: if the operating system fails, the document is lost. -/
example : ({ demoCli with write := fun _ => .stops 1 }.convertHtml c!"a" true demoWorld).1.files c!"a" =
    .truncated c!"<x>" 1 := by decide +kernel
example : ({ demoCli with args := ⟨false, true⟩ }.convertStdin c!"$x$ $$$$" demoWorld).1.stdout =
    c!"<x> ?\n" := by decide +kernel

end Verif

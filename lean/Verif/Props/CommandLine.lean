import Verif.Spec.CommandLine
import Verif.Props.Cli
/-!
C49. The CLI as a whole: what it does for every command line, every configuration file and every file system.
-/
namespace Verif
open Model Spec

theorem eq_none_iff_isSome {α : Type} (x : Option α) : x = none ↔ x.isSome = false := by cases x <;> simp

/-- C49. Exactly the command lines whose options fit together are accepted. -/
theorem C49_accepted (c : CommandLine) : c.accepted = true ↔ Consistent c := by
  have key : c.accepted = true ↔ (c.formula.isSome → c.file = none ∧ c.inlineDel = none ∧ c.blockDel = none ∧
      c.recursive = false ∧ c.write = false ∧ c.dryRun = false ∧ c.ignoreEscapedDelim = false ∧
      c.continueOnError = false) ∧ (c.inline = true ∨ c.block = true → c.file = none) ∧
      ¬ (c.inline = true ∧ c.block = true) ∧ ¬ (c.write = true ∧ c.recursive = true) ∧
      c.inlineOpen.isSome = c.inlineClose.isSome ∧ (c.inlineOpen.isSome → c.inlineDel = none) ∧
      c.blockOpen.isSome = c.blockClose.isSome ∧ (c.blockOpen.isSome → c.blockDel = none) := by
    unfold CommandLine.accepted CommandLine.conflicts CommandLine.requirements
    simp only [List.all_cons, List.all_nil, CommandLine.present, Bool.and_true, Bool.and_eq_true, Bool.not_eq_true',
      Bool.and_eq_false_iff, Bool.or_eq_true, eq_none_iff_isSome]
    generalize c.file.isSome = file, c.inlineDel.isSome = idel, c.blockDel.isSome = bdel, c.inlineOpen.isSome = io,
      c.inlineClose.isSome = ic, c.blockOpen.isSome = bo, c.blockClose.isSome = bc, c.formula.isSome = formula,
      c.recursive = r, c.write = w, c.dryRun = d, c.ignoreEscapedDelim = ig, c.continueOnError = co, c.inline = i,
      c.block = b
    cases formula <;> cases file <;> cases io <;> cases bo <;> cases idel <;> cases bdel <;> simp <;> grind
  rw [key]
  exact ⟨fun ⟨h1, h2, h3, h4, h5, h6, h7, h8⟩ => ⟨h1, h2, h3, h4, h5, h6, h7, h8⟩,
    fun ⟨h1, h2, h3, h4, h5, h6, h7, h8⟩ => ⟨h1, h2, h3, h4, h5, h6, h7, h8⟩⟩

theorem delims_asked {c : CommandLine} (h : Consistent c) :
    c.inlineDelim = some (delimsAsked (c.inlineOpen, c.inlineClose) c.inlineDel c!"$") ∧
    c.blockDelim = some (delimsAsked (c.blockOpen, c.blockClose) c.blockDel c!"$$") := by
  have h1 := h.inlinePair
  have h2 := h.blockPair
  unfold CommandLine.inlineDelim CommandLine.blockDelim
  constructor
  · cases ho : c.inlineOpen <;> cases hc : c.inlineClose <;> rw [ho, hc] at h1 <;> first | rfl | cases h1
  · cases ho : c.blockOpen <;> cases hc : c.blockClose <;> rw [ho, hc] at h2 <;> first | rfl | cases h2

section
variable {C S E : Type} (m : Host C S E)

/-- The CLI with the delimiters and options which were asked for -/
def cliAsked (c : CommandLine) : Cli S E where
  convert := m.convert
  errorHtml := m.errorHtml
  replacer := replacerAsked c
  args := ⟨c.dryRun, c.continueOnError⟩
  write := m.writes

/-- The configuration which was asked for: that of the given file, or of `mathcore.toml` if there is such a file, or
else the default. -/
inductive ConfigAsked (c : CommandLine) : C → Prop
  | given {path config} : c.configFile = some path → m.load path = .ok config → ConfigAsked c config
  | found {config} : c.configFile = none → m.load c!"mathcore.toml" = .ok config → ConfigAsked c config
  | missing : c.configFile = none → m.load c!"mathcore.toml" = .notFound → ConfigAsked c m.default

/-- The CLI starts working: the options fit together, the configuration can be read, and its macros are valid. -/
def Begins (c : CommandLine) (st : S) : Prop :=
  Consistent c ∧ ∃ config, ConfigAsked m c config ∧ m.new config = some st

theorem config_asked (c : CommandLine) (config : C) : m.config c = .ok config ↔ ConfigAsked m c config := by
  unfold Host.config
  constructor
  · intro h
    cases hf : c.configFile with
    | none =>
      rw [hf] at h
      dsimp only [Option.getD_none] at h
      cases hl : m.load c!"mathcore.toml" with
      | ok config' => rw [hl] at h; cases h; exact .found hf hl
      | notFound => rw [hl] at h; cases h; exact .missing hf hl
      | failed => rw [hl] at h; cases h
    | some path =>
      rw [hf] at h
      dsimp only [Option.getD_some] at h
      cases hl : m.load path with
      | ok config' => rw [hl] at h; cases h; exact .given hf hl
      | notFound => rw [hl] at h; cases h
      | failed => rw [hl] at h; cases h
  · intro h
    cases h with
    | given hf hl => rw [hf]; dsimp only [Option.getD_some]; rw [hl]
    | found hf hl => rw [hf]; dsimp only [Option.getD_none]; rw [hl]
    | missing hf hl => rw [hf]; dsimp only [Option.getD_none]; rw [hl]; rfl

theorem main_begins {c : CommandLine} {st : S} (h : Begins m c st) (files : Path → Contents) :
    m.main c files = .of (m.work c { st, files, stdout := [] }) := by
  obtain ⟨h1, config, h2, h3⟩ := h
  unfold Host.main
  rw [(C49_accepted c).2 h1, (config_asked m c config).2 h2]
  simp only [Bool.not_true, Bool.false_eq_true, ↓reduceIte, h3]

/-- C49. If the CLI does not start working, then nothing is printed and no file is touched, whatever the library and
the files are; the exit code is 3 if the given configuration file does not exist, 4 if the configuration cannot be
read, and 2 if the options do not fit together or a macro is invalid. -/
theorem C49_refused (c : CommandLine) (h : ∀ st, ¬ Begins m c st) (files : Path → Contents) :
    (m.main c files).files = files ∧ (m.main c files).stdout = [] ∧
    ((m.main c files).code = 3 ↔ Consistent c ∧ ∃ path, c.configFile = some path ∧ m.load path = .notFound) ∧
    ((m.main c files).code = 4 ↔ Consistent c ∧ m.load (c.configFile.getD c!"mathcore.toml") = .failed) ∧
    ((m.main c files).code = 2 ↔ ¬ Consistent c ∨ ∃ config, ConfigAsked m c config ∧ m.new config = none) := by
  by_cases hc : Consistent c
  · have ha := (C49_accepted c).2 hc
    cases hcfg : m.config c with
    | error code =>
      have hmain : m.main c files = ⟨files, [], code⟩ := by
        unfold Host.main
        rw [ha, hcfg]
        rfl
      have hno : ¬ ∃ config, ConfigAsked m c config ∧ m.new config = none := by
        rintro ⟨config, h, -⟩
        rw [← config_asked, hcfg] at h
        cases h
      rw [hmain]
      refine ⟨rfl, rfl, ?_⟩
      dsimp only
      unfold Host.config at hcfg
      cases hf : c.configFile with
      | none =>
        rw [hf] at hcfg
        cases hl : m.load c!"mathcore.toml" with
        | ok config => simp [hl] at hcfg
        | notFound => simp [hl] at hcfg
        | failed =>
          simp only [Option.getD_none, hl] at hcfg ⊢
          cases hcfg
          simp [hc, hno]
      | some path =>
        rw [hf] at hcfg
        cases hl : m.load path with
        | ok config => simp [hl] at hcfg
        | notFound =>
          simp [hl] at hcfg
          subst hcfg
          simp [hc, hno, hl]
        | failed =>
          simp [hl] at hcfg
          subst hcfg
          simp [hc, hno, hl]
    | ok config =>
      have hq := (config_asked m c config).1 hcfg
      cases hn : m.new config with
      | some st => exact absurd ⟨hc, config, hq, hn⟩ (h st)
      | none =>
        have hmain : m.main c files = ⟨files, [], 2⟩ := by
          unfold Host.main
          rw [ha, hcfg]
          simp only [Bool.not_true, Bool.false_eq_true, ↓reduceIte, hn]
        rw [hmain]
        refine ⟨rfl, rfl, ⟨fun h => by (cases h), ?_⟩, ⟨fun h => by (cases h), ?_⟩, fun _ => .inr ⟨config, hq, hn⟩, fun _ => rfl⟩
        · rintro ⟨-, path, h1, h2⟩
          cases hq with
          | given h3 h4 => rw [h1] at h3; cases h3; rw [h2] at h4; cases h4
          | found h3 h4 => rw [h1] at h3; cases h3
          | missing h3 h4 => rw [h1] at h3; cases h3
        · rintro ⟨-, h1⟩
          cases hq with
          | given h3 h4 => rw [h3] at h1; dsimp only [Option.getD_some] at h1; rw [h1] at h4; cases h4
          | found h3 h4 => rw [h3] at h1; dsimp only [Option.getD_none] at h1; rw [h1] at h4; cases h4
          | missing h3 h4 => rw [h3] at h1; dsimp only [Option.getD_none] at h1; rw [h1] at h4; cases h4
  · have ha : c.accepted = false := by
      cases h : c.accepted with
      | false => rfl
      | true => exact absurd ((C49_accepted c).1 h) hc
    have hmain : m.main c files = ⟨files, [], 2⟩ := by
      unfold Host.main
      rw [ha]
      rfl
    rw [hmain]
    exact ⟨rfl, rfl, ⟨fun h => by (cases h), fun h => absurd h.1 hc⟩, ⟨fun h => by (cases h), fun h => absurd h.1 hc⟩,
      fun _ => .inl hc, fun _ => rfl⟩

/-- C49. A formula, given as an option or on standard input, is converted once, as a displayed formula exactly if
`--block` is given. Its MathML is printed, or nothing is printed and the exit code is 2. No file is touched. -/
theorem C49_formula {c : CommandLine} {st : S} (hs : Begins m c st) (files : Path → Contents) (latex : Str)
    (h : c.formula = some latex ∨ c.formula = none ∧ c.file = none ∧ m.stdin = some latex) :
    (m.main c files).files = files ∧
    match (m.convert st latex (if c.block then .block else .inline)).2 with
    | .ok mathml => (m.main c files).stdout = mathml ++ c!"\n" ∧ (m.main c files).code = 0
    | .error _ => (m.main c files).stdout = [] ∧ (m.main c files).code = 2 := by
  have hw : m.work c { st, files, stdout := [] } = m.convertAndExit c latex { st, files, stdout := [] } := by
    unfold Host.work
    rcases h with h | ⟨h1, h2, h3⟩
    · have := (hs.1.formula (by rw [h]; rfl)).1
      rw [this, h]
    · rw [h1, h2]
      dsimp only [Host.withStdin]
      rw [h3]
  rw [main_begins m hs, hw]
  unfold Host.convertAndExit
  dsimp only
  cases hr : m.convert st latex (if c.block then .block else .inline) with
  | mk st' r =>
    cases r with
    | ok mathml => exact ⟨rfl, rfl, rfl⟩
    | error e => exact ⟨rfl, rfl, rfl⟩

theorem work_file {c : CommandLine} (hc : Consistent c) {f : Path} (hf : c.file = some f) (w : World S) :
    m.work c w =
      if f = c!"-" then m.withStdin w fun input => (cliAsked m c).convertStdin input w
      else if c.recursive then (cliAsked m c).convertHtmlRecursive (m.tree f) w
      else (cliAsked m c).convertHtml f c.write w := by
  have hd := delims_asked hc
  unfold Host.work
  rw [hf, hd.1, hd.2]
  rfl

/-- C49. The document on standard input is printed with its formulas replaced, as the delimiters and options on the
command line say; or nothing is printed, and the exit code is 2. No file is touched. -/
theorem C49_page {c : CommandLine} {st : S} (hs : Begins m c st) (files : Path → Contents) (hf : c.file = some c!"-")
    (input : Str) (hi : m.stdin = some input) :
    (m.main c files).files = files ∧
    match ((cliAsked m c).replace input st).2 with
    | .ok page => (m.main c files).stdout = page ++ c!"\n" ∧ (m.main c files).code = 0
    | .err _ => (m.main c files).stdout = [] ∧ (m.main c files).code = 2
    | .panic => (m.main c files).stdout = [] ∧ (m.main c files).code = 101 := by
  rw [main_begins m hs, work_file m hs.1 hf, if_pos rfl]
  unfold Host.withStdin Cli.convertStdin
  rw [hi]
  dsimp only
  cases hr : (cliAsked m c).replace input st with
  | mk st' r =>
    cases r with
    | ok mathml => exact ⟨rfl, rfl, rfl⟩
    | err e => exact ⟨rfl, rfl, rfl⟩
    | panic => exact ⟨rfl, rfl, rfl⟩

/-- C49. One file: its document, with the formulas replaced as the delimiters and options on the command line say,
is printed, or with `--write` stored in the file (if it is different), or neither on a dry run; then the exit code
is 0. If the document cannot be converted, then nothing is printed and no file is touched. -/
theorem C49_file {c : CommandLine} {st : S} (hs : Begins m c st) (files : Path → Contents) (f : Path)
    (hf : c.file = some f) (hd : f ≠ c!"-") (hr : c.recursive = false) (original : Str)
    (ho : files f = .text original) :
    match ((cliAsked m c).replace original st).2 with
    | .ok converted =>
      if c.dryRun then m.main c files = ⟨files, [], 0⟩
      else if c.write = false then m.main c files = ⟨files, converted, 0⟩
      else if original = converted then m.main c files = ⟨files, [], 0⟩
      else m.writes f = .done → m.main c files = ⟨setFile files f (.text converted), [], 0⟩
    | .err _ => m.main c files = ⟨files, [], 2⟩
    | .panic => m.main c files = ⟨files, [], 101⟩ := by
  rw [main_begins m hs, work_file m hs.1 hf, if_neg hd, hr]
  simp only [Bool.false_eq_true, ↓reduceIte]
  unfold Cli.convertHtml
  dsimp only
  rw [ho]
  dsimp only
  cases hx : (cliAsked m c).replace original st with
  | mk st' r =>
    cases r with
    | err e => rfl
    | panic => rfl
    | ok converted =>
      dsimp only
      show if c.dryRun then _ else _
      have hdry : (cliAsked m c).args.dryRun = c.dryRun := rfl
      have hwr : (cliAsked m c).write = m.writes := rfl
      rw [hdry, hwr]
      cases c.dryRun with
      | true => rfl
      | false =>
        cases c.write with
        | false => rfl
        | true =>
          rw [if_neg (by simp), if_neg (by simp)]
          by_cases he : original = converted
          · rw [if_pos he]
            simp only [Bool.false_eq_true, ↓reduceIte, he, ne_eq, not_true_eq_false]
            rfl
          · rw [if_neg he]
            simp only [Bool.false_eq_true, ↓reduceIte, he, ne_eq, not_false_eq_true]
            intro h
            rw [h]
            rfl

/-- C49. A run in recursive mode is that over the tree at the given path, so that C34 applies. -/
theorem C49_recursive {c : CommandLine} {st : S} (hs : Begins m c st) (files : Path → Contents) (f : Path)
    (hf : c.file = some f) (hd : f ≠ c!"-") (hr : c.recursive = true) :
    m.main c files = .of ((cliAsked m c).convertHtmlRecursive (m.tree f) { st, files, stdout := [] }) := by
  rw [main_begins m hs, work_file m hs.1 hf, if_neg hd, hr]
  rfl

/-- C49. Whatever happens, a file which the options do not allow to be written is as before. -/
theorem C49_untouched (c : CommandLine) (files : Path → Contents) (p : Path)
    (h : ¬ MayWrite c (fun f => htmlFiles (m.tree f)) p) : (m.main c files).files p = files p := by
  by_cases hst : ∃ st, Begins m c st
  · obtain ⟨st, hs⟩ := hst
    have hw : ∀ k : Str → World S × Option Exit, (∀ s, (k s).1.files p = files p) →
        (Left.of (m.withStdin { st, files, stdout := [] } k)).files p = files p := by
      intro k hk
      unfold Host.withStdin Left.of
      cases m.stdin with
      | none => rfl
      | some s => exact hk s
    rw [main_begins m hs]
    cases hf : c.file with
    | none =>
      have hcv : ∀ latex, (m.convertAndExit c latex { st, files, stdout := [] }).1.files p = files p := by
        intro latex
        unfold Host.convertAndExit
        split <;> rfl
      unfold Host.work
      rw [hf]
      dsimp only
      cases c.formula with
      | some latex => exact hcv latex
      | none => exact hw _ hcv
    | some f =>
      rw [work_file m hs.1 hf]
      by_cases hd : f = c!"-"
      · rw [if_pos hd]
        refine hw _ ?_
        intro s
        unfold Cli.convertStdin
        split <;> rfl
      · rw [if_neg hd]
        cases hr : c.recursive with
        | true =>
          by_cases hdry : c.dryRun = true
          · exact congrFun (C34_dry_run (cliAsked m c) hdry _ _).1 p
          · have hp : some p ∉ htmlFiles (m.tree f) := by
              intro hp
              refine h ⟨by simpa using hdry, f, hf, hd, .inl ⟨hr, hp⟩⟩
            simp only [↓reduceIte, Left.of]
            rw [recursive_visit]
            exact visit_others (cliAsked m c) _ _ p hp
        | false =>
          simp only [Bool.false_eq_true, ↓reduceIte, Left.of]
          by_cases hp : p = f
          · subst hp
            have := convertHtml_files (cliAsked m c) p c.write { st, files, stdout := [] }
            rcases this.2 with h1 | ⟨o, cv, h1, h2, h3, h4, h5, h6⟩
            · exact h1
            · exact absurd ⟨h5, p, hf, hd, .inr ⟨hr, h4, rfl⟩⟩ h
          · exact (convertHtml_files (cliAsked m c) f c.write { st, files, stdout := [] }).1 p hp
  · have := (C49_refused m c (fun st h => hst ⟨st, h⟩) files).1
    rw [this]

/-! ### Exit codes -/

theorem left_nothing {x : World S × Option Exit} (h : x.2 ≠ none) (hs : x.2 ≠ none → x.1.stdout = []) :
    (Left.of x).stdout = [] := hs h

theorem left_code {x : World S × Option Exit} : (Left.of x).code = 0 ↔ x.2 = none := by
  unfold Left.of
  cases x.2 with
  | none => simp
  | some e => cases e <;> simp [Exit.code]

theorem visit_stdout (cli : Cli S E) (ps : List (Option Path)) (w : World S) :
    (visit cli ps w).1.stdout = w.stdout := by
  have one : ∀ p w, (cli.convertHtml p true w).1.stdout = w.stdout := by
    intro p w
    unfold Cli.convertHtml
    repeat' split
    all_goals first | rfl | (rename_i h; exact absurd rfl h)
  induction ps generalizing w with
  | nil => rfl
  | cons x ps ih =>
    cases x with
    | none => rfl
    | some q =>
      simp only [visit]
      have h1 := one q w
      cases hx : cli.convertHtml q true w with
      | mk w' e =>
        rw [hx] at h1
        cases e with
        | some e => exact h1
        | none => simp only [andThen]; rw [ih w']; exact h1

theorem convertHtml_panic (cli : Cli S E) (p : Path) (write : Bool) (w : World S)
    (h : (cli.convertHtml p write w).2 = some .panic) : ∃ doc st, (cli.replace doc st).2 = .panic := by
  unfold Cli.convertHtml at h
  cases hf : w.files p with
  | unreadable => rw [hf] at h; cases h
  | truncated => rw [hf] at h; cases h
  | text original =>
    rw [hf] at h
    dsimp only at h
    cases hr : cli.replace original w.st with
    | mk st r =>
      rw [hr] at h
      cases r with
      | panic => exact ⟨original, w.st, by rw [hr]⟩
      | err => cases h
      | ok c =>
        dsimp only at h
        repeat' split at h
        all_goals cases h

theorem visit_panic (cli : Cli S E) (ps : List (Option Path)) (w : World S)
    (h : (visit cli ps w).2 = some .panic) : ∃ doc st, (cli.replace doc st).2 = .panic := by
  induction ps generalizing w with
  | nil => cases h
  | cons x ps ih =>
    cases x with
    | none => cases h
    | some q =>
      simp only [visit] at h
      cases hx : cli.convertHtml q true w with
      | mk w' e =>
        rw [hx] at h
        cases e with
        | none => exact ih w' h
        | some e =>
          cases h
          have h2 : (cli.convertHtml q true w).2 = some .panic := by rw [hx]
          exact convertHtml_panic cli q true w h2

/-- C49. Only a run which succeeds prints something. -/
theorem C49_silent (c : CommandLine) (files : Path → Contents) (h : (m.main c files).code ≠ 0) :
    (m.main c files).stdout = [] := by
  by_cases hst : ∃ st, Begins m c st
  · obtain ⟨st, hs⟩ := hst
    rw [main_begins m hs] at h ⊢
    have h := mt left_code.2 h
    refine left_nothing h ?_
    intro _
    have hcv : ∀ latex, (m.convertAndExit c latex { st, files, stdout := [] }).2 ≠ none →
        (m.convertAndExit c latex { st, files, stdout := [] }).1.stdout = [] := by
      intro latex
      unfold Host.convertAndExit
      split <;> intro h
      · exact absurd rfl h
      · rfl
    cases hf : c.file with
    | none =>
      unfold Host.work at h ⊢
      rw [hf] at h ⊢
      dsimp only at h ⊢
      cases hfo : c.formula with
      | some latex => rw [hfo] at h; exact hcv latex h
      | none =>
        rw [hfo] at h
        unfold Host.withStdin at h ⊢
        cases hi : m.stdin with
        | none => rfl
        | some s => rw [hi] at h; exact hcv s h
    | some f =>
      rw [work_file m hs.1 hf] at h ⊢
      by_cases hd : f = c!"-"
      · rw [if_pos hd] at h ⊢
        unfold Host.withStdin Cli.convertStdin at h ⊢
        cases hi : m.stdin with
        | none => rfl
        | some s =>
          rw [hi] at h
          dsimp only at h ⊢
          cases hr : (cliAsked m c).replace s st with
          | mk st' r =>
            rw [hr] at h
            cases r with
            | ok p => exact absurd rfl h
            | err => rfl
            | panic => rfl
      · rw [if_neg hd] at h ⊢
        cases hr : c.recursive with
        | true =>
          rw [if_pos rfl, recursive_visit, visit_stdout]
        | false =>
          rw [hr, if_neg (by simp)] at h
          rw [if_neg (by simp)]
          cases hw : c.write with
          | false =>
            rw [hw] at h
            exact (C34_print (cliAsked m c) f _).2.2 h
          | true =>
            have := visit_stdout (cliAsked m c) [some f] { st, files, stdout := [] }
            simp only [visit] at this
            rw [hw] at h
            cases hx : (cliAsked m c).convertHtml f true { st, files, stdout := [] } with
            | mk w' e =>
              rw [hx] at this
              cases e with
              | none => exact this
              | some e => exact this
  · exact (C49_refused m c (fun st h => hst ⟨st, h⟩) files).2.1

/-- C49. The exit codes are those documented in the code: 0, 1 (input and output), 2, 3 and 4; or 101 after a panic,
which happens only while a document is converted without `--continue-on-error` (see `C33_crash`). -/
theorem C49_codes (c : CommandLine) (files : Path → Contents) :
    (m.main c files).code ∈ [0, 1, 2, 3, 4] ∨
    (m.main c files).code = 101 ∧ c.file.isSome ∧ c.continueOnError = false := by
  by_cases hst : ∃ st, Begins m c st
  · obtain ⟨st, hs⟩ := hst
    rw [main_begins m hs]
    have key : ∀ x : World S × Option Exit, (x.2 = some .panic → c.file.isSome ∧ c.continueOnError = false) →
        (Left.of x).code ∈ [0, 1, 2, 3, 4] ∨
        (Left.of x).code = 101 ∧ c.file.isSome ∧ c.continueOnError = false := by
      intro x h
      unfold Left.of
      cases hx : x.2 with
      | none => simp
      | some e =>
        cases e with
        | io => simp [Exit.code]
        | conversion => simp [Exit.code]
        | panic => exact .inr ⟨rfl, h hx⟩
    refine key _ ?_
    intro h
    cases hf : c.file with
    | none =>
      exfalso
      have hcv : ∀ latex, (m.convertAndExit c latex { st, files, stdout := [] }).2 ≠ some .panic := by
        intro latex
        unfold Host.convertAndExit
        split <;> nofun
      unfold Host.work at h
      rw [hf] at h
      dsimp only at h
      cases hfo : c.formula with
      | some latex => rw [hfo] at h; exact hcv latex h
      | none =>
        rw [hfo] at h
        unfold Host.withStdin at h
        cases hi : m.stdin with
        | none => rw [hi] at h; cases h
        | some s => rw [hi] at h; exact hcv s h
    | some f =>
      refine ⟨rfl, ?_⟩
      have : ∃ doc st, ((cliAsked m c).replace doc st).2 = .panic := by
        rw [work_file m hs.1 hf] at h
        by_cases hd : f = c!"-"
        · rw [if_pos hd] at h
          unfold Host.withStdin Cli.convertStdin at h
          cases hi : m.stdin with
          | none => rw [hi] at h; cases h
          | some s =>
            rw [hi] at h
            dsimp only at h
            cases hr : (cliAsked m c).replace s st with
            | mk st' r =>
              rw [hr] at h
              cases r with
              | ok p => cases h
              | err => cases h
              | panic => exact ⟨s, st, by rw [hr]⟩
        · rw [if_neg hd] at h
          cases hr : c.recursive with
          | true =>
            rw [hr, if_pos rfl, recursive_visit] at h
            exact visit_panic _ _ _ h
          | false =>
            rw [hr, if_neg (by simp)] at h
            exact convertHtml_panic _ _ _ _ h
      obtain ⟨doc, st, h⟩ := this
      cases hc : c.continueOnError with
      | false => rfl
      | true => exact absurd h (C30_continue (cliAsked m c) hc doc st).1
  · by_cases hc : Consistent c
    · left
      have ha := (C49_accepted c).2 hc
      have : ∃ code ∈ [2, 3, 4], m.main c files = ⟨files, [], code⟩ := by
        unfold Host.main
        rw [ha]
        simp only [Bool.not_true, Bool.false_eq_true, ↓reduceIte]
        cases hcfg : m.config c with
        | error code =>
          refine ⟨code, ?_, rfl⟩
          unfold Host.config at hcfg
          split at hcfg
          · cases hcfg
          · split at hcfg <;> cases hcfg
            simp
          · cases hcfg
            simp
        | ok config =>
          dsimp only
          cases hn : m.new config with
          | none => exact ⟨2, by simp, rfl⟩
          | some st => exact absurd ⟨st, hc, config, (config_asked m c config).1 hcfg, hn⟩ hst
      obtain ⟨code, h1, h2⟩ := this
      rw [h2]
      simp only [List.mem_cons, List.not_mem_nil, or_false] at h1 ⊢
      omega
    · left
      have := (C49_refused m c (fun st h => hst ⟨st, h⟩) files).2.2.2.2.2 (.inl hc)
      rw [this]
      simp

end

/-! ### Findings and examples -/

/-- A host whose library puts formulas into parentheses and rejects `!`; a state is not needed. There is no
configuration file, and standard input holds `$x$`. -/
def demoHost : Host Unit Unit Unit where
  default := ()
  new := some
  convert st latex _ := (st, if latex = c!"!" then .error () else .ok (c!"(" ++ latex ++ c!")"))
  errorHtml _ _ _ := c!"?"
  load _ := .notFound
  stdin := some c!"$x$"
  tree p := if p = c!"dir" then .dir true [.file c!"dir/a.html" true] else .file p false
  writes _ := .done

def demoFiles : Path → Contents := fun p =>
  if p = c!"dir/a.html" then .text c!"<p>$y$</p>" else if p = c!"b" then .text c!"[z]" else .unreadable

/-- C49 is false about dry runs: a dry run with the document on standard input prints it. -/
theorem C49_dry_run_prints :
    (demoHost.main { file := some c!"-", dryRun := true } demoFiles).stdout = c!"(x)\n" := by decide +kernel

/-- C49 is false about `--recursive`: without a directory it is accepted, and standard input is converted as a
formula (with its delimiters). -/
theorem C49_recursive_alone :
    (demoHost.main { recursive := true } demoFiles).code = 0 ∧
    (demoHost.main { recursive := true } demoFiles).stdout = c!"($x$)\n" := by decide +kernel

/-- C49 is false about delimiters: unlike `--inline-del`, `--inline-open` is accepted together with a formula, and
ignored. -/
theorem C49_delimiters_ignored :
    (demoHost.main { formula := some c!"x", inlineDel := some c!"|" } demoFiles).code = 2 ∧
    (demoHost.main { formula := some c!"x", inlineOpen := some c!"[", inlineClose := some c!"]" } demoFiles).stdout =
      c!"(x)\n" := by decide +kernel

theorem demo_begins {c : CommandLine} (hc : Consistent c) (hf : c.configFile = none) : Begins demoHost c () :=
  ⟨hc, (), .missing hf rfl, rfl⟩

example : Begins demoHost { formula := some c!"!", block := true } () :=
  demo_begins ((C49_accepted _).1 rfl) rfl
example : Begins demoHost { file := some c!"b", write := true, inlineOpen := some c!"[", inlineClose := some c!"]" } () :=
  demo_begins ((C49_accepted _).1 rfl) rfl
example : (demoHost.main { file := some c!"b", write := true, inlineOpen := some c!"[", inlineClose := some c!"]" }
    demoFiles).files c!"b" = .text c!"(z)" := by decide +kernel
example : (demoHost.main { file := some c!"dir", recursive := true } demoFiles).files c!"dir/a.html" =
    .text c!"<p>(y)</p>" := by decide +kernel
example : (demoHost.main { file := some c!"b", inlineOpen := some c!"[" } demoFiles).code = 2 := by decide +kernel
example : (demoHost.main { formula := some c!"x", configFile := some c!"c" } demoFiles).code = 3 := by decide +kernel
example : (demoHost.main { formula := some c!"!" } demoFiles).code = 2 := by decide +kernel
example : MayWrite { file := some c!"dir", recursive := true } (fun f => htmlFiles (demoHost.tree f)) c!"dir/a.html" :=
  ⟨rfl, _, rfl, by decide, .inl ⟨rfl, by decide +kernel⟩⟩

end Verif

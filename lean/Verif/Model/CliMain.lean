import Verif.Model.Cli
/-!
Model of crates/math-core-cli/src/main.rs:20-217: the command line, the configuration file and `main`.

clap itself and the TOML reader are external code. Of clap, what its documentation says about `conflicts_with`,
`requires`, `group` and `default_value` is modelled: conflicts are symmetric and, like requirements, only look at the
arguments which are on the command line; two arguments of a group conflict. `--help` and `--version` are left out.
-/
namespace Verif.Model

/-- main.rs:22-117, the arguments as they are on the command line, before defaults are filled in -/
structure CommandLine where
  file : Option Path := none
  inlineDel : Option Str := none
  blockDel : Option Str := none
  inlineOpen : Option Str := none
  inlineClose : Option Str := none
  blockOpen : Option Str := none
  blockClose : Option Str := none
  recursive : Bool := false
  write : Bool := false
  dryRun : Bool := false
  ignoreEscapedDelim : Bool := false
  continueOnError : Bool := false
  formula : Option Str := none
  inline : Bool := false
  block : Bool := false
  configFile : Option Path := none

/-- The names of the arguments -/
inductive Arg
  | file | inlineDel | blockDel | inlineOpen | inlineClose | blockOpen | blockClose | recursive | write | dryRun
  | ignoreEscapedDelim | continueOnError | formula | inline | block | configFile

namespace CommandLine

/-- Is an argument on the command line? -/
def present (c : CommandLine) : Arg → Bool
  | .file => c.file.isSome
  | .inlineDel => c.inlineDel.isSome
  | .blockDel => c.blockDel.isSome
  | .inlineOpen => c.inlineOpen.isSome
  | .inlineClose => c.inlineClose.isSome
  | .blockOpen => c.blockOpen.isSome
  | .blockClose => c.blockClose.isSome
  | .recursive => c.recursive
  | .write => c.write
  | .dryRun => c.dryRun
  | .ignoreEscapedDelim => c.ignoreEscapedDelim
  | .continueOnError => c.continueOnError
  | .formula => c.formula.isSome
  | .inline => c.inline
  | .block => c.block
  | .configFile => c.configFile.isSome

/-- main.rs:24, 31, 40, 48, 57, 66, 75, 82, 87, 91, 95, 99, 103, 107 and 111, `conflicts_with`; the last pair is the
group of main.rs:107 and 111. -/
def conflicts : List (Arg × Arg) :=
  [(.file, .formula), (.inlineDel, .formula), (.blockDel, .formula), (.inlineOpen, .inlineDel),
   (.inlineClose, .inlineDel), (.blockOpen, .blockDel), (.blockClose, .blockDel), (.recursive, .formula),
   (.write, .formula), (.write, .recursive), (.dryRun, .formula), (.ignoreEscapedDelim, .formula),
   (.continueOnError, .formula), (.formula, .file), (.inline, .file), (.block, .file), (.inline, .block)]

/-- main.rs:49, 58, 67 and 76, `requires` -/
def requirements : List (Arg × Arg) :=
  [(.inlineOpen, .inlineClose), (.inlineClose, .inlineOpen), (.blockOpen, .blockClose), (.blockClose, .blockOpen)]

/-- main.rs:120 `Args::parse`: does clap accept the arguments? -/
def accepted (c : CommandLine) : Bool :=
  conflicts.all (fun p => !(c.present p.1 && c.present p.2)) &&
    requirements.all (fun p => !c.present p.1 || c.present p.2)

/-- main.rs:160-164; `none` stands for the panic of `unwrap`. -/
def inlineDelim (c : CommandLine) : Option (Str × Str) :=
  match c.inlineOpen with
  | some «open» => c.inlineClose.map fun close => («open», close)
  | none => let del := c.inlineDel.getD c!"$"; some (del, del)

/-- main.rs:165-169; `none` stands for the panic of `unwrap`. -/
def blockDelim (c : CommandLine) : Option (Str × Str) :=
  match c.blockOpen with
  | some «open» => c.blockClose.map fun close => («open», close)
  | none => let del := c.blockDel.getD c!"$$"; some (del, del)

end CommandLine

/-- config_file.rs:74-78, as far as `main` distinguishes the results -/
inductive Loaded (C : Type)
  | ok (config : C)
  | notFound
  | failed

/-- The library (with configurations of type `C`, states of type `S` and errors of type `E`) and the operating system
around `main` -/
structure Host (C S E : Type) where
  /-- `Config::default()` -/
  default : C
  /-- `LatexToMathML::new`; `none` if a macro is invalid -/
  new : C → Option S
  convert : S → Str → MathDisplay → S × Except E Str
  errorHtml : E → Str → MathDisplay → Str
  load : Path → Loaded C
  /-- What is on standard input; `none` if it cannot be read as UTF-8 -/
  stdin : Option Str
  /-- What is at a path -/
  tree : Path → Tree
  writes : Path → WriteOutcome

/-- What is left after the process: the files, what was printed, and the exit code -/
structure Left where
  files : Path → Contents
  stdout : Str
  code : Nat

/-- main.rs:346, 351 and the exit code of a panic -/
def Exit.code : Exit → Nat
  | .io => 1
  | .conversion => 2
  | .panic => 101

/-- The process ends when `main` returns. -/
def Left.of {S : Type} (x : World S × Option Exit) : Left :=
  { files := x.1.files, stdout := x.1.stdout, code := match x.2 with | none => 0 | some e => e.code }

namespace Host
variable {C S E : Type} (m : Host C S E)

/-- main.rs:123-152; or the exit code -/
def config (c : CommandLine) : Except Nat C :=
  match m.load (c.configFile.getD c!"mathcore.toml") with
  | .ok config => .ok config
  | .notFound => if c.configFile.isNone then .ok m.default else .error 3
  | .failed => .error 4

/-- main.rs:204-217 `convert_and_exit` -/
def convertAndExit (c : CommandLine) (latex : Str) (w : World S) : World S × Option Exit :=
  match m.convert w.st latex (if c.block then .block else .inline) with
  | (st, .ok mathml) => ({ w with st, stdout := w.stdout ++ mathml ++ c!"\n" }, none)
  | (st, .error _) => ({ w with st }, some .conversion)

/-- main.rs:196-202 `read_stdin` -/
def withStdin (w : World S) (k : Str → World S × Option Exit) : World S × Option Exit :=
  match m.stdin with
  | some s => k s
  | none => (w, some .io)

/-- main.rs:170, and what `replace` and `convert_html` take from the arguments -/
def cli (c : CommandLine) (inlineDelim blockDelim : Str × Str) : Cli S E where
  convert := m.convert
  errorHtml := m.errorHtml
  replacer := ⟨inlineDelim.1, inlineDelim.2, blockDelim.1, blockDelim.2, c.ignoreEscapedDelim⟩
  args := ⟨c.dryRun, c.continueOnError⟩
  write := m.writes

/-- main.rs:159-193 -/
def work (c : CommandLine) (w : World S) : World S × Option Exit :=
  match c.file with
  | some fpath =>
    match c.inlineDelim, c.blockDelim with
    | some i, some b =>
      let cli := m.cli c i b
      if fpath = c!"-" then m.withStdin w fun input => cli.convertStdin input w
      else if c.recursive then cli.convertHtmlRecursive (m.tree fpath) w
      else cli.convertHtml fpath c.write w
    | _, _ => (w, some .panic)
  | none =>
    match c.formula with
    | some formula => m.convertAndExit c formula w
    | none => m.withStdin w fun input => m.convertAndExit c input w

/-- main.rs:119-194 `main` -/
def main (c : CommandLine) (files : Path → Contents) : Left :=
  let nothing (code : Nat) : Left := { files, stdout := [], code }
  if !c.accepted then nothing 2
  else
    match m.config c with
    | .error code => nothing code
    | .ok config =>
      match m.new config with
      | none => nothing 2
      | some st => .of (m.work c { st, files, stdout := [] })

end Host
end Verif.Model

import Verif.Model.Replace
/-! Model of crates/math-core-cli/src/main.rs: which files are written, and what is written to
them. -/
namespace Verif.Model

/-- The path of a file; only compared. -/
abbrev Path := Str

/-- What is in a file. -/
inductive Contents
  | text (s : Str)
  /-- Missing, not UTF-8, or not permitted: `read_to_string` fails. -/
  | unreadable
  /-- Only the first bytes of a text. -/
  | truncated (s : Str) (bytes : Nat)
  deriving DecidableEq, Repr

/-- What the operating system does when a file is written (`File::create`, which truncates it, and
`write_all`). -/
inductive WriteOutcome
  | done
  | createFails
  | stops (bytes : Nat)
  deriving DecidableEq, Repr

/-- How the process ends early: exit code 1 (`exit_io_error`, main.rs:349-352), exit code 2
(`exit_conversion_error`, main.rs:340-347), or a panic. -/
inductive Exit | io | conversion | panic
  deriving DecidableEq, Repr

/-- main.rs:20-117, the options which matter once the replacer is made -/
structure CliArgs where
  dryRun : Bool
  continueOnError : Bool

/-- The converter (with its state of type `S`), how it shows an error as HTML, the delimiters, the
options and the operating system. -/
structure Cli (S E : Type) where
  convert : S → Str → MathDisplay → S × Except E Str
  errorHtml : E → Str → MathDisplay → Str
  replacer : Replacer
  args : CliArgs
  write : Path → WriteOutcome

/-- The state of the converter, the files and what has been printed. -/
structure World (S : Type) where
  st : S
  files : Path → Contents
  stdout : Str

/-- main.rs:249-260, the callback -/
def Cli.callback {S E : Type} (cli : Cli S E) (st : S) (latex : Str) (display : MathDisplay) :
    S × Except E Str :=
  match cli.convert st latex display with
  | (st, .ok mathml) => (st, .ok mathml)
  | (st, .error err) =>
    if cli.args.continueOnError then (st, .ok (cli.errorHtml err latex display))
    else (st, .error err)

/-- main.rs:240-261 `replace` -/
def Cli.replace {S E : Type} (cli : Cli S E) (input : Str) (st : S) : S × ReplaceResult E :=
  cli.replacer.replace cli.callback input st

/-- Change one file. -/
def setFile (files : Path → Contents) (fp : Path) (c : Contents) : Path → Contents :=
  fun p => if p = fp then c else files p

/-- main.rs:309-331 `convert_html` -/
def Cli.convertHtml {S E : Type} (cli : Cli S E) (fp : Path) (write : Bool) (w : World S) :
    World S × Option Exit :=
  match w.files fp with
  | .text original =>
    match cli.replace original w.st with
    | (st, .err _) => ({ w with st }, some .conversion)
    | (st, .panic) => ({ w with st }, some .panic)
    | (st, .ok converted) =>
      if cli.args.dryRun then ({ w with st }, none)
      else if write then
        if original ≠ converted then
          match cli.write fp with
          | .createFails => ({ w with st }, some .io)
          | .stops n => ({ w with st, files := setFile w.files fp (.truncated converted n) }, some .io)
          | .done => ({ w with st, files := setFile w.files fp (.text converted) }, none)
        else ({ w with st }, none)
      else ({ w with st, stdout := w.stdout ++ converted }, none)
  | _ => (w, some .io)

/-- A directory or a file, as `is_dir`, `is_file`, `extension` and `read_dir` show it. The entries
are in the order in which `read_dir` gives them, without those it cannot read. -/
inductive Tree
  | dir (listable : Bool) (entries : List Tree)
  | file (path : Path) (isHtml : Bool)
  | other

/-- Run one action after another, until one exits. -/
def andThen {S : Type} (x : World S × Option Exit) (next : World S → World S × Option Exit) :
    World S × Option Exit :=
  match x with
  | (w, none) => next w
  | (w, some e) => (w, some e)

mutual
/-- main.rs:288-307 `convert_html_recursive` -/
def Cli.convertHtmlRecursive {S E : Type} (cli : Cli S E) : Tree → World S → World S × Option Exit
  | .dir listable entries, w =>
    if !listable then (w, some .io) else cli.convertEntries entries w
  | .file path isHtml, w => if isHtml then cli.convertHtml path true w else (w, none)
  | .other, w => (w, none)

/-- main.rs:296-298, the loop over the entries of a directory -/
def Cli.convertEntries {S E : Type} (cli : Cli S E) : List Tree → World S → World S × Option Exit
  | [], w => (w, none)
  | entry :: rest, w => andThen (cli.convertHtmlRecursive entry w) (cli.convertEntries rest)
end

/-- main.rs:171-183, standard input -/
def Cli.convertStdin {S E : Type} (cli : Cli S E) (input : Str) (w : World S) : World S × Option Exit :=
  match cli.replace input w.st with
  | (st, .ok mathml) => ({ w with st, stdout := w.stdout ++ mathml ++ c!"\n" }, none)
  | (st, .err _) => ({ w with st }, some .conversion)
  | (st, .panic) => ({ w with st }, some .panic)

end Verif.Model

import Verif.Spec.Tex
import Verif.Model.Error

/-! Formulas in which something does not belong where it is: delimiters which do not match, environments which are closed
under another name, `&` without a table, dollar signs, arguments and scripts which are missing, and scripts which are there twice. -/

namespace Verif.Spec

open Verif.Model

/-- `^` or `_` -/
def scriptMark (above : Bool) : Lexeme := .char (if above then '^' else '_')

/-- What must be followed by an argument -/
inductive Taker
  /-- `\sqrt` -/
  | root
  /-- `\hat` and so on -/
  | accent (row : AccentRow)
  /-- `\overbrace` and so on -/
  | brace (row : AccentRow)
  /-- `\phantom`, `\hphantom`, `\vphantom` -/
  | phantom (name : Str)
  /-- `\cancel` and so on -/
  | stroke (row : Str × Nat)
  /-- `\overset` or `\underset` -/
  | stack (above : Bool)
  /-- `\xrightarrow` and so on -/
  | arrow (row : ArrowRow)
  /-- `\frac` and so on -/
  | fraction (binomial : Bool) (name : Str)
  /-- `\frac` and so on, and the first argument -/
  | over (binomial : Bool) (name : Str) (a : TexArg)
  /-- something with `^` or `_` -/
  | script (n : Nuc) (above : Bool)

/-- What opens a part of a formula -/
inductive Opening
  /-- `{` -/
  | brace
  /-- `\left(` and so on -/
  | left (d : DelimRow)
  /-- `\begin{pmatrix}` and so on -/
  | begins (row : TableRow)
  /-- `\sqrt{`, `x^{` and so on -/
  | argument (x : Taker)

/-- What does not belong where it is -/
inductive Stray
  /-- `}` -/
  | brace
  /-- `\right)` and so on -/
  | right (d : DelimRow)
  /-- `\end{pmatrix}` and so on -/
  | ends (row : TableRow)
  /-- `&` -/
  | amp
  /-- `$` -/
  | dollar
  /-- the end of the source -/
  | stop

def Taker.lexemes : Taker → List Lexeme
  | .root => [.command c!"sqrt"]
  | .accent row | .brace row => [.command row.name]
  | .phantom name => [.command name]
  | .stroke row => [.command row.1]
  | .stack above => [.command (if above then c!"overset" else c!"underset")]
  | .arrow row => [.command row.name]
  | .fraction _ name => [.command name]
  | .over _ name a => .command name :: a.lexemes
  | .script n above => n.lexemes ++ [scriptMark above]

def Opening.lexemes : Opening → List Lexeme
  | .brace => [.char '{']
  | .left d => [.command c!"left", d.written]
  | .begins row => [.opens row.name]
  | .argument x => x.lexemes ++ [.char '{']

def Stray.lexemes : Stray → List Lexeme
  | .brace => [.char '}']
  | .right d => [.command c!"right", d.written]
  | .ends row => [.closes row.name]
  | .amp => [.char '&']
  | .dollar => [.char '$']
  | .stop => []

/-- A script of the kind -/
def someScript (above : Bool) : Scr := if above then .sup (.braces .nil) else .sub (.braces .nil)

/-- The commands are known, and the other parts are proper. -/
def Taker.proper : Taker → Bool
  | .root => true
  | .accent row => decide (row ∈ accentRows)
  | .brace row => decide (row ∈ braceRows)
  | .phantom name => decide (name ∈ [c!"phantom", c!"hphantom", c!"vphantom"])
  | .stroke row => decide (row ∈ strokeRows)
  | .stack _ => true
  | .arrow row => decide (row ∈ arrowRows)
  | .fraction binomial name => decide (name ∈ if binomial then binomialNames else fractionNames)
  | .over binomial name a => decide (name ∈ if binomial then binomialNames else fractionNames) && a.proper
  | .script n above => n.proper false (someScript above) [scriptMark above]

/-- The openings are known. -/
def Opening.proper : Opening → Bool
  | .brace => true
  | .left d => decide (d ∈ delimRows)
  | .begins row => decide (row ∈ tableRows)
  | .argument x => x.proper

/-- A formula up to the first thing which does not belong, and what comes after it -/
inductive Broken
  /-- The first thing is here. -/
  | here (f : Tex) (x : Stray) (rest : Tex)
  /-- An environment is closed under another name here. -/
  | renamed (f : Tex) (row row' : TableRow) (t : Table) (rest : Tex)
  /-- There is something else where an argument or script should begin. -/
  | missing (f : Tex) (x : Taker) (s : Stray) (rest : Tex)
  /-- After `^` or `_` there is another one, or a prime. -/
  | marks (f : Tex) (n : Nuc) (above : Bool) (mark : Char) (rest : Tex)
  /-- There are two scripts of the same kind. -/
  | twice (f : Tex) (n : Nuc) (above : Bool) (a b : TexArg) (rest : Tex)
  /-- It is in something which is opened here. -/
  | inside (f : Tex) (o : Opening) (b : Broken)
  /-- It is after `&` or (if `row`) after `\\`. -/
  | cell (f : Tex) (row : Bool) (b : Broken)

def Broken.lexemes : Broken → List Lexeme
  | .here f x rest => f.lexemes ++ (x.lexemes ++ rest.lexemes)
  | .renamed f row row' t rest => f.lexemes ++ (.opens row.name :: (t.lexemes ++ .closes row'.name :: rest.lexemes))
  | .missing f x s rest => f.lexemes ++ (x.lexemes ++ (s.lexemes ++ rest.lexemes))
  | .marks f n above mark rest => f.lexemes ++ ((Taker.script n above).lexemes ++ .char mark :: rest.lexemes)
  | .twice f n above a b rest =>
    f.lexemes ++ ((Taker.script n above).lexemes ++ (a.lexemes ++ scriptMark above :: (b.lexemes ++ rest.lexemes)))
  | .inside f o b => f.lexemes ++ (o.lexemes ++ b.lexemes)
  | .cell f row b => f.lexemes ++ (if row then .command c!"\\" else .char '&') :: b.lexemes

/-- What is missing at the end of something -/
def Opening.closing : Opening → EndToken
  | .brace | .argument _ => .groupClose
  | .left _ => .right
  | .begins _ => .endEnv

/-- What ends the part which has been opened -/
def endFor : Option Opening → EndToken
  | none => .eoi
  | some o => o.closing

/-- It does not belong between `around` and what closes that. There are columns here if `columns` is true. -/
def Stray.misplaced (around : Option Opening) (columns : Bool) : Stray → Bool
  | .brace => decide (endFor around ≠ .groupClose)
  | .right d => decide (d ∈ delimRows) && decide (endFor around ≠ .right)
  | .ends row => decide (row ∈ tableRows) && decide (endFor around ≠ .endEnv)
  | .amp => !columns
  | .dollar => true
  | .stop => around.isSome

/-- No argument or script can begin with it. -/
def Stray.noArgument : Stray → Bool
  | .brace | .stop => true
  | .right d => decide (d ∈ delimRows)
  | .ends row => decide (row ∈ tableRows)
  | .amp | .dollar => false

/-- Are there columns inside, if there are some (or none) outside? (In LaTeX there are none in braces. But the converter accepts `&` there,
see `C25_separator_lost_in_group`.) -/
def Opening.columns (outside : Bool) : Opening → Bool
  | .brace | .left _ | .argument _ => outside
  | .begins row => row.columns

/-- If the source ends, there is nothing after it. -/
def Stray.fits (rest : Tex) : Stray → Bool
  | .stop => match rest with
    | .nil => true
    | _ => false
  | _ => true

/-- No number goes on with it. -/
def Tex.apart (f : Tex) (ls : List Lexeme) : Bool := (match f with
    | .nil => true
    | _ => false) || !ls.head?.any Lexeme.continuesDigits

/-- Everything before the first thing which does not belong is as it should be. -/
def Broken.proper : Broken → Option Opening → Bool → Bool
  | .here f x rest, around, columns => f.proper false true && rest.proper false false && x.misplaced around columns && x.fits rest
  | .renamed f row row' t rest, _, _ => f.proper false true && rest.proper false false && decide (row ∈ tableRows) &&
    decide (row' ∈ tableRows) && decide (row.name ≠ row'.name) && t.proper row.columns
  | .missing f x s rest, _, _ => f.proper false true && rest.proper false false && x.proper && s.noArgument && s.fits rest &&
    f.apart x.lexemes
  | .marks f n above mark rest, _, _ => f.proper false true && rest.proper false false && (Taker.script n above).proper &&
    decide (mark ∈ ['^', '_', '\'']) && f.apart (Taker.script n above).lexemes
  | .twice f n above a b rest, _, _ => f.proper false true && rest.proper false false && (Taker.script n above).proper &&
    a.proper && b.proper && f.apart (Taker.script n above).lexemes
  | .inside f o b, _, columns => f.proper false true && o.proper && b.proper (some o) (o.columns columns) && f.apart o.lexemes
  | .cell f row b, around, columns => f.proper false true && (row || columns) && b.proper around columns

/-- What the message is about -/
def Broken.Reason : Broken → Option Opening → LatexErrKind → Prop
  | .here _ x _, around, k => match x with
    | .brace => k = .unmatchedClose .groupClose
    | .right _ => k = .unmatchedClose .right
    | .ends _ => k = .unmatchedClose .endEnv
    | .amp => k = .cannotBeUsedHere .ampersand .tableEnv
    | .dollar => k = .unexpectedDollar
    | .stop => k = .unclosedGroup (endFor around)
  | .renamed _ row row' _ _, _, k => ∃ e e', k = .mismatchedEnvironment e e' ∧ e.asStr = row.name ∧ e'.asStr = row'.name
  | .missing _ _ s _, _, k => match s with
    | .stop => k = .expectedArgumentGotEOI
    | _ => k = .expectedArgumentGotClose
  | .marks _ _ _ _ _, _, k => k = .boundFollowedByBound
  | .twice _ _ _ _ _ _, _, k => k = .duplicateSubOrSup
  | .inside _ o b, _, k => b.Reason (some o) k
  | .cell _ _ b, around, k => b.Reason around k

end Verif.Spec

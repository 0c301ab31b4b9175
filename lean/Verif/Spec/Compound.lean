import Verif.Spec.Tex
/-! Commands of LaTeX which stand for several symbols: `\ldots`, `\iff` and its relatives from amsmath, and the relations with colons from the
packages mathtools and colonequals. -/
namespace Verif.Spec
open Model

/-- A command and what it stands for: symbols, and spaces (`none`) -/
structure CompoundRow where
  name : Str
  shown : List (Option Nat)
deriving DecidableEq

/-- The colon of these packages is centered: this is U+2236. (Without `\coloneqq`, `\dblcolon` and some more: these have characters of
their own, and a setting decides whether they are used.) -/
def compoundRows : List CompoundRow := [
  ⟨c!"iff", [none, some 0x27FA, none]⟩, ⟨c!"implies", [none, some 0x27F9, none]⟩, ⟨c!"impliedby", [none, some 0x27F8, none]⟩,
  ⟨c!"And", [none, some 0x26, none]⟩, ⟨c!"ldots", [some 0x2E, some 0x2E, some 0x2E]⟩,
  ⟨c!"coloncolon", [some 0x2236, some 0x2236]⟩,
  ⟨c!"colonequals", [some 0x2236, some 0x3D]⟩,
  ⟨c!"coloncolonequals", [some 0x2236, some 0x2236, some 0x3D]⟩,
  ⟨c!"equalscolon", [some 0x3D, some 0x2236]⟩,
  ⟨c!"Eqqcolon", [some 0x3D, some 0x2236, some 0x2236]⟩, ⟨c!"Eqcolon", [some 0x3D, some 0x2236, some 0x2236]⟩,
  ⟨c!"equalscoloncolon", [some 0x3D, some 0x2236, some 0x2236]⟩,
  ⟨c!"colonapprox", [some 0x2236, some 0x2248]⟩, ⟨c!"Colonapprox", [some 0x2236, some 0x2236, some 0x2248]⟩,
  ⟨c!"coloncolonapprox", [some 0x2236, some 0x2236, some 0x2248]⟩,
  ⟨c!"colonsim", [some 0x2236, some 0x223C]⟩, ⟨c!"Colonsim", [some 0x2236, some 0x2236, some 0x223C]⟩,
  ⟨c!"coloncolonsim", [some 0x2236, some 0x2236, some 0x223C]⟩,
  ⟨c!"colondash", [some 0x2236, some 0x2212]⟩, ⟨c!"colonminus", [some 0x2236, some 0x2212]⟩,
  ⟨c!"Colondash", [some 0x2236, some 0x2236, some 0x2212]⟩, ⟨c!"coloncolonminus", [some 0x2236, some 0x2236, some 0x2212]⟩,
  ⟨c!"minuscolon", [some 0x2212, some 0x2236]⟩,
  ⟨c!"Dashcolon", [some 0x2212, some 0x2236, some 0x2236]⟩, ⟨c!"minuscoloncolon", [some 0x2212, some 0x2236, some 0x2236]⟩,
  ⟨c!"simcolon", [some 0x223C, some 0x2236]⟩, ⟨c!"simcoloncolon", [some 0x223C, some 0x2236, some 0x2236]⟩,
  ⟨c!"Simcolon", [some 0x223C, some 0x2236, some 0x2236]⟩,
  ⟨c!"approxcolon", [some 0x2248, some 0x2236]⟩, ⟨c!"approxcoloncolon", [some 0x2248, some 0x2236, some 0x2236]⟩]

/-- A symbol, or a space -/
def compoundTree : Option Nat → Tree
  | some n => .char n
  | none => .leaf c!"mspace" []

/-- What a command shows -/
def CompoundRow.trees (row : CompoundRow) : List Tree := row.shown.map compoundTree

/-- A command which puts symbols around its argument -/
structure WrapRow where
  name : Str
  opening : Nat
  closing : Nat
deriving DecidableEq

/-- The commands of the package braket whose bars do not grow -/
def wrapRows : List WrapRow := [⟨c!"bra", 0x27E8, 0x7C⟩, ⟨c!"ket", 0x7C, 0x27E9⟩, ⟨c!"braket", 0x27E8, 0x27E9⟩]

/-- A command which puts delimiters around its argument which are as high as it is -/
structure FenceRow where
  name : Str
  left : DelimRow
  right : DelimRow
deriving DecidableEq

/-- The large forms of two of them -/
def fenceRows : List FenceRow := [⟨c!"Bra", ⟨.command c!"langle", 0x27E8⟩, ⟨.command c!"rvert", 0x7C⟩⟩,
  ⟨c!"Ket", ⟨.command c!"lvert", 0x7C⟩, ⟨.command c!"rangle", 0x27E9⟩⟩]

/-- Formulas with such commands between them -/
inductive Chain
  | last (f : Tex)
  | link (f : Tex) (row : CompoundRow) (rest : Chain)
  /-- `\bra{…}` and so on -/
  | wrap (f : Tex) (row : WrapRow) (a : Tex) (rest : Chain)
  /-- `\Bra{…}` and so on -/
  | fenced (f : Tex) (row : FenceRow) (a : Tex) (rest : Chain)

/-- What is written -/
def Chain.lexemes : Chain → List Lexeme
  | .last f => f.lexemes
  | .link f row rest => f.lexemes ++ .command row.name :: rest.lexemes
  | .wrap f row a rest => f.lexemes ++ .command row.name :: .char '{' :: (a.lexemes ++ .char '}' :: rest.lexemes)
  | .fenced f row a rest => f.lexemes ++ .command row.name :: .char '{' :: (a.lexemes ++ .char '}' :: rest.lexemes)

/-- What is to be seen -/
def Chain.trees : Chain → List Tree
  | .last f => f.trees
  | .link f row rest => f.trees ++ (row.trees ++ rest.trees)
  | .wrap f row a rest => f.trees ++ (.char row.opening :: (a.trees ++ .char row.closing :: rest.trees))
  | .fenced f row a rest => f.trees ++ (.node c!"mrow" (.char row.left.shown :: a.trees ++ [.char row.right.shown]) :: rest.trees)

/-- The formulas are right (a style or a colour would be in force up to the end of the formula, so only the last one has them). Arguments
are not empty, and there is no text with spaces in them. -/
def Chain.proper : Chain → Bool
  | .last f => f.proper false false
  | .link f row rest => f.proper false true && decide (row ∈ compoundRows) && rest.proper
  | .wrap f row a rest => f.proper false true && decide (row ∈ wrapRows) && rest.proper && a.proper false true &&
    !a.lexemes.isEmpty && a.lexemes.all fun l => decide (l ≠ .blank)
  | .fenced f row a rest => f.proper false true && decide (row ∈ fenceRows) && rest.proper && a.proper false false &&
    !a.lexemes.isEmpty && a.lexemes.all fun l => decide (l ≠ .blank)

/-- The number of commands -/
def Chain.links : Chain → Nat
  | .last _ => 0
  | .link _ _ rest | .wrap _ _ _ rest | .fenced _ _ _ rest => rest.links + 1

/-- Such a command, with its argument -/
inductive LinkCmd
  | plain (row : CompoundRow)
  | wrap (row : WrapRow) (a : Tex)
  | fenced (row : FenceRow) (a : Tex)

/-- What is written -/
def LinkCmd.lexemes : LinkCmd → List Lexeme
  | .plain row => [.command row.name]
  | .wrap row a => .command row.name :: braced a.lexemes
  | .fenced row a => .command row.name :: braced a.lexemes

/-- This is such a command, and its argument is right. -/
def LinkCmd.proper : LinkCmd → Bool
  | .plain row => decide (row ∈ compoundRows)
  | .wrap row a => decide (row ∈ wrapRows) && a.proper false true && !a.lexemes.isEmpty && a.lexemes.all fun l => decide (l ≠ .blank)
  | .fenced row a => decide (row ∈ fenceRows) && a.proper false false && !a.lexemes.isEmpty && a.lexemes.all fun l => decide (l ≠ .blank)

/-- Formulas with a command after each of them -/
abbrev Links := List (Tex × LinkCmd)

/-- What is written -/
def linksLexemes : Links → List Lexeme
  | [] => []
  | (f, x) :: rest => f.lexemes ++ (x.lexemes ++ linksLexemes rest)

/-- The formulas are right, and these are such commands. -/
def linksProper (x : Links) : Bool := x.all fun (f, y) => f.proper false true && y.proper

end Verif.Spec

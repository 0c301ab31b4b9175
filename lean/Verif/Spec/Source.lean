import Verif.Spec.Grammar
import Verif.Spec.Lexing
import Verif.Spec.Session
/-! Sources which consist of given tokens, and what the formulas they stand for mean. -/
namespace Verif.Spec
open Model

/-- The tokens are the expected ones, apart from whitespace in front of those which are not tight. -/
inductive Reads : List Token → List Tk → Prop
  | nil : Reads [] []
  | tok {t ts b xs} : Reads ts xs → Reads (t :: ts) (⟨t, b⟩ :: xs)
  | ws {ts x xs} : x.tight = false → Reads ts (x :: xs) → Reads (.whitespace :: ts) (x :: xs)

/-- The token of something which was read, where the names of commands are looked up -/
def meaningOf (cfg : ParserConfig) (g : GlobalState) (o : LexerOutput) : Token :=
  (resolveLexed cfg ⟨cfg.customCmds, g.customCmds, {}⟩ o).tok

/-- The source consists of these tokens, up to the end. -/
def Spells (cfg : ParserConfig) (g : GlobalState) (src : Str) (ts : List Tk) : Prop :=
  (tokensOf src).2 = none ∧ Reads ((tokensOf src).1.map (meaningOf cfg g)) (ts ++ [⟨.eoi, false⟩])

/-- The meaning of a formula which is all of a snippet; `left` is how many macros may be expanded -/
def Form.value (f : Form) (left : Nat) (g : GlobalState) (display : MathDisplay) :
    Except LatexErrKind (List Node × Loc) :=
  f.denote ⟨display.style, {}, g.equationCount, g.labelMap, left, false⟩ .opening .ending

/-- The macros which are known at the beginning of a snippet -/
def knownMacros (cfg : ParserConfig) (g : GlobalState) : Macros := macrosOf cfg ⟨cfg.customCmds, g.customCmds, {}⟩

/-! A way to check whether a source consists of given tokens, for examples. -/

/-- Are these the same token? (For some tokens it is never found out.) -/
def sameTok : Token → Token → Bool
  | .mathOrTextMode t c, .mathOrTextMode t' c' => sameTok t t' && decide (c = c')
  | .eoi, .eoi | .newColumn, .newColumn | .newLine, .newLine | .noNumber, .noNumber | .label, .label
  | .left, .left | .right, .right | .squareBracketOpen, .squareBracketOpen
  | .squareBracketClose, .squareBracketClose | .groupBegin, .groupBegin | .groupEnd, .groupEnd
  | .underscore, .underscore | .circumflex, .circumflex | .sqrt, .sqrt | .whitespace, .whitespace
  | .nonBreakingSpace, .nonBreakingSpace | .middle, .middle | .eqRef, .eqRef | .prescript, .prescript => true
  | .hline a, .hline b => decide (a = b)
  | .enclose a, .enclose b => decide (a = b)
  | .phantom a, .phantom b => decide (a = b)
  | .overUnderBrace a b, .overUnderBrace a' b' => decide (a = a') && decide (b = b')
  | .big a b, .big a' b' => decide (a = a') && decide (b = b')
  | .customSpace a, .customSpace b => decide (a = b)
  | .mathClass a, .mathClass b => decide (a = b)
  | .beginEnv a, .beginEnv b | .endEnv a, .endEnv b => decide (a = b)
  | .tag a, .tag b => decide (a = b)
  | .frac a, .frac b | .binom a, .binom b => decide (a = b)
  | .space a, .space b => decide (a = b)
  | .accent a b c, .accent a' b' c' => decide (a = a') && decide (b = b') && decide (c = c')
  | .ord a, .ord b | .opening a, .opening b | .closing a, .closing b => decide (a = b)
  | .op a, .op b | .inner a, .inner b => decide (a = b)
  | .binaryOp a, .binaryOp b => decide (a = b)
  | .relation a, .relation b => decide (a = b)
  | .punctuation a, .punctuation b => decide (a = b)
  | .prime a, .prime b => decide (a = b)
  | .forceOrd a, .forceOrd b | .forceBinaryOp a, .forceBinaryOp b | .forceRelation a, .forceRelation b
  | .forcePunctuation a, .forcePunctuation b | .forceMathInner a, .forceMathInner b => decide (a = b)
  | .forceOpen a b, .forceOpen a' b' | .forceClose a b, .forceClose a' b' => decide (a = a') && decide (b = b')
  | .letter a b, .letter a' b' => decide (a = a') && decide (b = b')
  | .uprightLetter a, .uprightLetter b => decide (a = b)
  | .digit a, .digit b => decide (a = b)
  | .pseudoOperator a, .pseudoOperator b | .pseudoOperatorLimits a, .pseudoOperatorLimits b => decide (a = b)
  | .style a, .style b => decide (a = b)
  | .transform a, .transform b => decide (a = b)
  | .color, .color | .genfrac, .genfrac | .overset, .overset | .underset, .underset | .cramped, .cramped
  | .relax, .relax => true
  | .xarrow a, .xarrow b => decide (a = b)
  | .overlay a, .overlay b => decide (a = b)
  | .limits a, .limits b => decide (a = b)
  | .operatorName a, .operatorName b => decide (a = b)
  | .text a, .text b => decide (a = b)
  | .customCmdRef a b c d e, .customCmdRef a' b' c' d' e' =>
    decide (a = a') && decide (b = b') && decide (c = c') && decide (d = d') && decide (e = e')
  | _, _ => false

/-- Are these the expected tokens? -/
def reads : List Token → List Tk → Bool
  | [], [] => true
  | t :: ts, x :: xs => (sameTok t x.tok && reads ts xs) || (sameTok t .whitespace && !x.tight && reads ts (x :: xs))
  | _, _ => false

/-- Does the source consist of these tokens? -/
def spells (cfg : ParserConfig) (g : GlobalState) (src : Str) (ts : List Tk) : Bool :=
  (tokensOf src).2.isNone && reads ((tokensOf src).1.map (meaningOf cfg g)) (ts ++ [⟨.eoi, false⟩])

/-- Are these the same tokens, of which fewer have to be tight? -/
def loosens : List Tk → List Tk → Bool
  | [], [] => true
  | x :: xs, y :: ys => sameTok x.tok y.tok && (!x.tight || y.tight) && loosens xs ys
  | _, _ => false

mutual
/-- Are all calls expanded correctly? -/
def Form.links (M : Macros) : Form → Bool
  | .nil => true
  | .item b s rest => b.links M && s.links M && rest.links M
  | .bigOp _ s rest | .func _ _ s rest => s.links M && rest.links M
  | .amp rest | .newLine _ rest | .noNumber rest | .tag _ _ rest | .label _ rest | .style _ rest
  | .color _ rest => rest.links M
  | .call t args k cont => (match M t with
    | some (n, body) => n == args.length && !body.isEmpty && decide (args.length ≤ 9) &&
      body.all (fun p => match p with | .param i => decide (i < 9) | .tok _ => true) &&
      loosens (cont.tokens.take k) (expandTks args false body)
    | none => false) && cont.links M
  | .emptyCall t args s rest => (match M t with
    | some (n, body) => n == args.length && body.isEmpty && decide (args.length ≤ 9)
    | none => false) && s.links M && rest.links M
/-- The same for bases -/
def Base.links (M : Macros) : Base → Bool
  | .atom _ | .number _ _ | .leaf _ => true
  | .group f | .fence _ _ f | .env _ _ _ f | .cramped _ f => f.links M
  | .frac _ _ a b | .genfrac _ a b | .braceLabel _ _ a b => a.links M && b.links M
  | .prescript a b c => a.links M && b.links M && c.links M
  | .sqrt a | .deco _ a | .brace _ _ a | .stackTok _ a _ | .arrow _ a => a.links M
  | .mathClass _ b | .overlay _ b => b.links M
  | .root f a | .arrowUnder _ f a => f.links M && a.links M
  | .stackGroup _ a f => a.links M && f.links M
/-- The same for arguments -/
def Arg.links (M : Macros) : Arg → Bool
  | .tok _ => true
  | .braces f => f.links M
/-- The same for scripts -/
def Scripts.links (M : Macros) : Scripts → Bool
  | .nil => true
  | .sub a s | .sup a s | .primesSup _ _ a s => a.links M && s.links M
  | .primes _ _ s => s.links M
end

end Verif.Spec

import Verif.Lemmas.TexRead
/-! The tables of the converter compared with those for the commands of LaTeX. -/
namespace Verif
open Model Spec

/-- The text of a symbol -/
def showsNat (c : SuperChar) (n : Nat) : Bool := decide (c.text = [Char.ofNat n])

/-- A row of the table is also one of the converter, with the same symbol. -/
def latexStands (r : SymbolRow) : Bool :=
  decide (r.name ∈ oddSymbols) ||
    match fixedTok r.name with
    | some t => stands t r.symbol && !(t matches .digit _)
    | none => false

set_option maxRecDepth 100000 in
theorem latex_stand : latexRows.all latexStands = true := by decide +kernel

/-- The limits of a symbol are where they should be. -/
def limitsRight (t : Token) (x : Symbol) : Bool :=
  match t with
  | .op o | .mathOrTextMode (.op o) _ => (decide (o.cat ≠ .C) && decide (o.cat = .J)) == x.limits
  | _ => true

/-- The same for a command -/
def rowLimits (r : SymbolRow) : Bool :=
  decide (r.type ≠ .op) || decide (r.name ∈ oddSymbols) ||
    match fixedTok r.name with
    | some t => limitsRight t r.symbol
    | none => false

set_option maxRecDepth 100000 in
theorem rows_limits : symbolRows.all rowLimits = true := by decide +kernel

set_option maxRecDepth 100000 in
theorem latex_limits : latexRows.all rowLimits = true := by decide +kernel

set_option maxRecDepth 100000 in
theorem table_limits : (unicodeOperators.all fun p => !isSymbol p.1 || limitsRight (.mathOrTextMode p.2 p.1) (typedSymbol p.1)) =
    true := by decide +kernel

set_option maxRecDepth 100000 in
theorem ascii_limits : ((List.range 128).all fun n => !isSymbol (Char.ofNat n) ||
    limitsRight (Lexer.charToken (Char.ofNat n)) (typedSymbol (Char.ofNat n))) = true := by decide +kernel

theorem fractions_known : fractionNames.all (fun n => match fixedTok n with
    | some (.frac _) => true | _ => false) = true := by decide +kernel

theorem binomials_known : binomialNames.all (fun n => match fixedTok n with
    | some (.binom _) => true | _ => false) = true := by decide +kernel

theorem spaces_known : spaceNames.all (fun n => match fixedTok n with
    | some (.space _) | some (.mathOrTextMode (.space _) _) => true | _ => false) = true := by decide +kernel

set_option maxRecDepth 100000 in
theorem functions_known : functionRows.all (fun r => match fixedTok r.name with
    | some (.pseudoOperator s) => decide (s = r.shown) && !r.limits && plainName s
    | some (.pseudoOperatorLimits s) => decide (s = r.shown) && r.limits && plainName s
    | _ => false) = true := by decide +kernel

set_option maxRecDepth 100000 in
theorem accents_known : accentRows.all (fun r => match fixedTok r.name with
    | some (.accent o isOver _) => isOver == r.over && showsNat o.asOp.sc r.char
    | _ => false) = true := by decide +kernel

theorem braces_known : braceRows.all (fun r => match fixedTok r.name with
    | some (.overUnderBrace x isOver) => isOver == r.over && showsNat x.asOp.sc r.char
    | _ => false) = true := by decide +kernel

/-- A lexeme with a fixed meaning -/
def Spec.Lexeme.fixed : Lexeme → Bool
  | .char _ | .next _ | .blank => true
  | .command name => (fixedTok name).isSome
  | .opens name | .closes name => (Env.fromStr name).isSome

/-- A row of the table of delimiters is also one of the converter. -/
def delimRight (r : DelimRow) : Bool :=
  let t := r.written.tok
  r.written.fixed && Named t.unwrapMath && !t.isWs &&
  (t.unwrapMath.isFullStop || t.unwrapMath.delimiter.isSome) &&
  match delimShape (tokenDelim t.unwrapMath) with
  | .op c => showsNat c r.shown
  | _ => false

set_option maxRecDepth 100000 in
theorem delims_known : delimRows.all delimRight = true := by decide +kernel

set_option maxRecDepth 100000 in
theorem fonts_known : fontRows.all (fun r => match fixedTok r.name with
    | some (.transform tf) => (List.range 128).all fun n => !isAsciiAlpha (Char.ofNat n) ||
      (r.capitalA == 0x1d504 && Char.ofNat n == 'I') ||
      match fontChar tf (Lexer.charToken (Char.ofNat n)) with
      | some c => decide (c.text = r.shown (Char.ofNat n))
      | none => false
    | _ => false) = true := by decide +kernel

/-- The delimiters of an environment are the right ones. -/
def delimsRight (r : TableRow) (e : Env) : Bool :=
  match envDelims e, r.left, r.right with
  | none, none, none => true
  | some (l, r), some l', some r' =>
    (match delimShape l with | .op c => showsNat c l' | _ => false) &&
    match delimShape r with | .op c => showsNat c r' | _ => false
  | _, _, _ => false

theorem tables_known : tableRows.all (fun r => match Env.fromStr r.name with
    | some e => noSpec e && (envNumbering e).isNone && envColumns e == r.columns && delimsRight r e && envRows e
    | none => false) = true := by decide +kernel

theorem arrays_known : arrayNames.all (fun n => match Env.fromStr n with
    | some e => !noSpec e && (envNumbering e).isNone && envColumns e && envRows e && (envDelims e).isNone
    | none => false) = true := by decide +kernel

/-- The tokens of the commands for structure -/
theorem structure_known : fixedTok c!"sqrt" = some .sqrt ∧ fixedTok c!"left" = some .left ∧ fixedTok c!"right" = some .right ∧
    fixedTok c!"overset" = some .overset ∧ fixedTok c!"underset" = some .underset ∧
    fixedTok c!"operatorname" = some (.operatorName false) ∧ fixedTok c!"\\" = some .newLine := by
  have h : ∀ {o : Option Token} {t : Token}, (match o with | some t' => sameTok t' t | none => false) = true → o = some t := by
    intro o t h
    cases o with
    | none => cases h
    | some t' => rw [sameTok_eq h]
  refine ⟨h ?_, h ?_, h ?_, h ?_, h ?_, h ?_, h ?_⟩ <;> decide +kernel

end Verif

import Verif.Model.Commands
/-! Model of `resolve_builtin_cmd` and `get_operator_from_unicode` (crates/math-core/src/commands.rs). -/
namespace Verif.Model

/-- lib.rs:131-141 -/
inductive UnicodeSubstitution | never | conventional
  deriving DecidableEq, Repr

/-- commands.rs:955-966, the commands which are only available with
`allow_unreliable_rendering`. -/
def unreliableCmds : List (Str × Token) :=
  [(c!"widecheck", .accent Sym.CARON true OpAttrs.stretchyTrue),
   (c!"widetilde", .accent Sym.TILDE.asBmpOp true OpAttrs.stretchyTrue),
   (c!"utilde", .accent Sym.TILDE.asBmpOp false OpAttrs.empty)]

/-- commands.rs:968-986, the commands which are replaced by a single character under
conventional Unicode substitution. -/
def substitutedCmds : List (Str × Token) :=
  [(c!"Coloneq", .relation Sym.DOUBLE_COLON_EQUAL),
   (c!"Coloneqq", .relation Sym.DOUBLE_COLON_EQUAL),
   (c!"cdots", .forceMathInner Sym.MIDLINE_HORIZONTAL_ELLIPSIS.asOp),
   (c!"coloneq", .relation Sym.COLON_EQUALS),
   (c!"coloneqq", .relation Sym.COLON_EQUALS),
   (c!"dashcolon", .relation Sym.EXCESS),
   (c!"dblcolon", .relation Sym.PROPORTION),
   (c!"eqcolon", .relation Sym.EQUALS_COLON),
   (c!"eqqcolon", .relation Sym.EQUALS_COLON)]

/-- commands.rs:952-995 `resolve_builtin_cmd`. The arguments are the two fields of `ParserConfig`
which the function reads. -/
def resolveBuiltinCmd (allowUnreliable : Bool) (subst : UnicodeSubstitution) (name : Str) :
    Option Token :=
  (if allowUnreliable then unreliableCmds.lookup name else none).or
  ((if subst = .conventional then substitutedCmds.lookup name else none).or
  ((commands.lookup name).or
   (if functions.contains name then some (.pseudoOperator name) else none)))

/-- commands.rs:1929-1933 `get_operator_from_unicode` -/
def getOperatorFromUnicode (c : Char) : Option Token :=
  (unicodeOperators.lookup c).map (fun tok => .mathOrTextMode tok c)

end Verif.Model

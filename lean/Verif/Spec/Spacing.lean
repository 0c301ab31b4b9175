import Verif.Spec.Grammar
/-! TeX's rules for the space between the atoms of a formula (The TeXbook, chapter 18, page 170, and rules 5, 6 and
20 of appendix G), and the space which a browser shows between the elements of the output. -/
namespace Verif.Spec
open Model

/-! ### TeX -/

/-- TeX's types of atoms -/
inductive Atom | ord | op | bin | rel | opening | closing | punct | inner
  deriving DecidableEq, Repr

/-- The entries of TeX's table: nothing, a thin space (in every style, or only if the style is not a script style),
a medium or a thick space (not in script styles), and combinations which do not occur -/
inductive Glue | no | thin | thin' | med' | thick' | never
  deriving DecidableEq, Repr

/-- The table on page 170 of The TeXbook: first the atom on the left, then the one on the right -/
def texTable : Atom → Atom → Glue
  | .ord => fun
    | .ord => .no | .op => .thin | .bin => .med' | .rel => .thick' | .opening => .no | .closing => .no | .punct => .no | .inner => .thin'
  | .op => fun
    | .ord => .thin | .op => .thin | .bin => .never | .rel => .thick' | .opening => .no | .closing => .no | .punct => .no | .inner => .thin'
  | .bin => fun
    | .ord => .med' | .op => .med' | .bin => .never | .rel => .never | .opening => .med' | .closing => .never | .punct => .never | .inner => .med'
  | .rel => fun
    | .ord => .thick' | .op => .thick' | .bin => .never | .rel => .no | .opening => .thick' | .closing => .no | .punct => .no | .inner => .thick'
  | .opening => fun
    | .ord => .no | .op => .no | .bin => .never | .rel => .no | .opening => .no | .closing => .no | .punct => .no | .inner => .no
  | .closing => fun
    | .ord => .no | .op => .thin | .bin => .med' | .rel => .thick' | .opening => .no | .closing => .no | .punct => .no | .inner => .thin'
  | .punct => fun
    | .ord => .thin' | .op => .thin' | .bin => .never | .rel => .thin' | .opening => .thin' | .closing => .thin' | .punct => .thin' | .inner => .thin'
  | .inner => fun
    | .ord => .thin' | .op => .thin | .bin => .med' | .rel => .thick' | .opening => .thin' | .closing => .no | .punct => .thin' | .inner => .thin'

/-- Script styles, where most of the spaces are left out -/
def small : Style → Bool
  | .display | .text => false
  | .script | .scriptScript => true

/-- The space which TeX puts between two atoms, in eighteenths of a quad (mu) -/
def texSpace (st : Style) (a b : Atom) : Nat :=
  match texTable a b with
  | .no | .never => 0
  | .thin => 3
  | .thin' => if small st then 0 else 3
  | .med' => if small st then 0 else 4
  | .thick' => if small st then 0 else 5

/-- A binary operator is an ordinary atom if there is nothing on its left it could refer to, or on its right. The
types on the left are the final ones. -/
def becomesOrd (prev : Option Atom) (next : Option Atom) : Bool :=
  (match prev with
    | none | some .bin | some .op | some .rel | some .opening | some .punct => true
    | _ => false) ||
  (match next with
    | none | some .rel | some .closing | some .punct => true
    | _ => false)

/-- The final type of an atom between others -/
def finalAtom (prev : Option Atom) (a : Atom) (next : Option Atom) : Atom :=
  if a = .bin && becomesOrd prev next then .ord else a

/-- The final types of atoms, after an atom whose final type is `prev` -/
def finalAtoms (prev : Option Atom) : List Atom → List Atom
  | [] => []
  | a :: as => finalAtom prev a as.head? :: finalAtoms (some (finalAtom prev a as.head?)) as

/-- The spaces between atoms of final types -/
def texSpaces (st : Style) : List Atom → List Nat
  | a :: b :: rest => texSpace st a b :: texSpaces st (b :: rest)
  | _ => []

/-! ### The input -/

/-- The type of the atom a single token stands for -/
def plainAtom : Token → Option Atom
  | .letter _ _ | .uprightLetter _ | .ord _ | .forceOrd _ => some .ord
  | .binaryOp _ | .forceBinaryOp _ => some .bin
  | .relation _ | .forceRelation _ => some .rel
  | .opening _ | .forceOpen _ _ | .squareBracketOpen => some .opening
  | .closing _ | .forceClose _ _ | .squareBracketClose => some .closing
  | .punctuation _ | .forcePunctuation _ => some .punct
  | .inner _ | .forceMathInner _ => some .inner
  | _ => none

/-- The same for all tokens -/
def atomOf : Token → Option Atom
  | .digit _ => some .ord
  | .op _ | .mathOrTextMode (.op _) _ | .pseudoOperator _ | .pseudoOperatorLimits _ => some .op
  | t => plainAtom t.unwrapMath

/-- The types of the atoms -/
def atomsOf (ts : List Token) : List Atom := ts.filterMap atomOf

/-- The formula which consists of single tokens -/
def formOf : List Token → Form
  | [] => .nil
  | .digit d :: ts => .item (.number d []) .nil (formOf ts)
  | .op o :: ts => .bigOp o .nil (formOf ts)
  | .mathOrTextMode (.op o) c :: ts => .bigOp ⟨o, none, some c⟩ .nil (formOf ts)
  | .pseudoOperator n :: ts => .func n false .nil (formOf ts)
  | .pseudoOperatorLimits n :: ts => .func n true .nil (formOf ts)
  | t :: ts => .item (.atom t) .nil (formOf ts)

/-- All are atoms, and no digit is followed by something which belongs to the same number. -/
def separate : List Token → Bool
  | [] => true
  | t :: ts =>
    (atomOf t).isSome &&
    (match t, ts with
      | .digit _, t' :: _ => !continuesNumber t'
      | _, _ => true) &&
    separate ts

/-! ### Formulas which do not only consist of single tokens -/

/-- Is the token shown as a letter or as a number? -/
def inked : Token → Bool
  | .letter _ _ | .uprightLetter _ | .digit _ => true
  | _ => false

mutual
/-- Is there something in the formula which is neither an operator nor space? -/
def Form.heavy : Form → Bool
  | .nil => false
  | .item b _ rest => b.heavy || rest.heavy
  | .bigOp _ _ rest | .func _ _ _ rest | .amp rest | .newLine _ rest | .noNumber rest | .tag _ _ rest | .label _ rest
  | .style _ rest | .color _ rest | .call _ _ _ rest | .emptyCall _ _ _ rest => rest.heavy
/-- The same for the base of scripts. MathML treats a fraction as it treats its numerator. -/
def Base.heavy : Base → Bool
  | .atom t => inked t.unwrapMath
  | .number _ _ | .sqrt _ | .root _ _ | .fence _ _ _ | .genfrac _ _ _ => true
  | .group f | .stackGroup _ _ f | .cramped _ f => f.heavy
  | .stackTok _ _ t => inked t.unwrapMath
  | .frac _ isBinom num _ => isBinom || num.heavy
  | .deco _ a | .prescript _ _ a => a.heavy
  | .leaf (.font _ _) | .leaf (.fontTok _ _) => true
  | .overlay _ b => b.heavy
  | _ => false
/-- The same for an argument -/
def Arg.heavy : Arg → Bool
  | .tok t => inked t.unwrapMath
  | .braces f => f.heavy
end

/-- A single symbol, perhaps in braces -/
def Base.symbol : Base → Option Token
  | .atom t | .group (.item (.atom t) .nil .nil) => some t.unwrapMath
  | _ => none

/-- A token or a group -/
def Base.single : Base → Bool
  | .atom _ | .group _ => true
  | _ => false

/-- The type which is given by `\mathrel` and so on -/
def givenAtom : MathClassKind → Atom
  | .ord => .ord
  | .op => .op
  | .bin => .bin
  | .rel => .rel
  | .opening => .opening
  | .closing => .closing
  | .punct => .punct
  | .inner => .inner

/-- The type of the atom a token stands for where digits are not put together -/
def aloneAtom : Token → Option Atom
  | .digit _ => some .ord
  | t => plainAtom t

/-- The type of the atom which a part of a formula stands for. Groups, fractions, roots, accents, text and so on are
ordinary atoms; `\bigl`, `\bigr` and `\bigm` are followed by an opening, a closing and a relation; `\overset` keeps
the type of the symbol below; arrows with labels are relations. Where nothing is said, the part is not one for which the spaces are described. -/
def Base.atomType : Base → Option Atom
  | .atom t => plainAtom t.unwrapMath
  | .number _ _ | .sqrt _ | .root _ _ | .genfrac _ _ _ | .leaf (.font _ _) | .leaf (.fontTok _ _) | .leaf (.textBox _ _) => some .ord
  | .group f | .stackGroup _ _ f | .cramped _ f => if f.heavy then some .ord else none
  | .stackTok _ _ t => aloneAtom t.unwrapMath
  | .arrow _ _ | .arrowUnder _ _ _ => some .rel
  | .frac _ isBinom num _ => if isBinom || num.heavy then some .ord else none
  | .deco _ a => if a.heavy then some .ord else none
  | .leaf (.big _ side _) =>
    match side with
    | some .left => some .opening
    | some .right => some .closing
    | some .middle => some .rel
    | none => some .ord
  | .overlay _ (.atom t) => plainAtom t.unwrapMath
  | .mathClass kind b =>
    if kind ≠ .bin && b.single && (b.heavy || (b.symbol.any fun t => (plainAtom t).isSome)) then some (givenAtom kind)
    else none
  | _ => none

/-- Scripts of `\mathrel{…}` and so on are shown beside the padding, unless it has been put on an operator. -/
def Base.takesScripts : Base → Bool
  | .mathClass _ b => !b.heavy
  | _ => true

/-- The class of the next token as it is seen from the symbol. Below or above another symbol, the end is not seen. -/
def Base.sees : Base → Class → Class
  | .stackTok _ _ _, .ending => .default
  | _, c => c

/-- The class which goes with a type of atoms -/
def atomClass : Atom → Class
  | .ord => .default
  | .op => .operator
  | .bin => .binaryOp
  | .rel => .relation
  | .opening => .opening
  | .closing => .closing
  | .punct => .punctuation
  | .inner => .inner

/-- The class of what comes next -/
def rightClass : Option Atom → Class
  | none => .ending
  | some a => atomClass a

/-- The converter chooses the space on the right from the class of the next token. Here it is the one of the next
atom, or this does not matter: ordinary atoms, openings and closings have no space of their own, and a brace only
matters after an operator like `\sin`. -/
def foresees (a : Atom) (seen : Class) (next : Option Atom) : Bool :=
  (a = .ord || a = .opening || a = .closing) || seen = rightClass next ||
    (a ≠ .op && seen = .opening && next = some .ord)

/-- The types of the atoms of a formula, if the spaces are described for all its parts -/
def Form.types : Form → Option (List Atom)
  | .nil => some []
  | .item b s rest =>
    match b.atomType, rest.types with
    | some a, some as =>
      if foresees a (b.sees (lead (s.tokens ++ rest.tokens) .ending)) as.head? && (b.takesScripts || s.tokens.isEmpty) then
        some (a :: as)
      else none
    | _, _ => none
  | .bigOp o s rest =>
    match rest.types with
    | some as =>
      if foresees .op (lead (if o.op.cat = .C then s.tokens ++ rest.tokens else rest.tokens) .ending) as.head? then
        some (.op :: as)
      else none
    | none => none
  | .func _ _ _ rest =>
    match rest.types with
    | some as => if foresees .op (lead rest.tokens .ending) as.head? then some (.op :: as) else none
    | none => none
  | .call _ _ _ cont => cont.types
  | _ => none

/-! ### The output -/

/-- The width of a spacing attribute -/
def muWidth : MathSpacing → Nat
  | .zero => 0
  | .threeMu => 3
  | .fourMu => 4
  | .fiveMu => 5

/-- The space on the left and on the right of an operator without spacing attributes, according to the operator
dictionary of MathML Core -/
def naturalSpace : Atom → Nat × Nat
  | .ord | .opening | .closing => (0, 0)
  | .punct => (0, 3)
  | .op | .inner => (3, 3)
  | .bin => (4, 4)
  | .rel => (5, 5)

mutual
/-- Elements which are only space, in the sense of MathML Core -/
def spaceLike : Node → Bool
  | .space _ | .text _ _ _ | .aHref _ _ | .eqRef _ => true
  | .row ns _ => spaceLikes ns
  | .padded n _ _ _ _ _ | .phantom n => spaceLike n
  | _ => false
/-- Only such elements -/
def spaceLikes : List Node → Bool
  | [] => true
  | n :: ns => spaceLike n && spaceLikes ns
end

mutual
/-- The operator in the core of an element, in the sense of MathML Core ("embellished operators"): the spaces of this
operator are shown around the whole element. -/
def core : Node → Option Node
  | .operator op attrs size l r => some (.operator op attrs size l r)
  | .pseudoOp attrs l r name => some (.pseudoOp attrs l r name)
  | .sub n _ | .sup n _ | .subSup n _ _ | .overAccent _ _ n | .underAccent _ _ n | .over _ n | .under _ n
  | .underOver n _ _ | .multiscripts n _ _ | .frac n _ _ _ _ => core n
  | .padded n _ _ _ _ _ | .phantom n | .enclose n _ => core n
  | .row ns _ => coreOf ns
  | _ => none
/-- The same for a row: it has a core if, apart from space, it consists of one element with a core. -/
def coreOf : List Node → Option Node
  | [] => none
  | n :: ns => if spaceLike n then coreOf ns else if spaceLikes ns then core n else none
end

/-- The space around an element with the given core -/
def coreSpace (a : Atom) : Option Node → Nat × Nat
  | some (.operator _ _ _ l r) | some (.pseudoOp _ l r _) =>
    ((l.map muWidth).getD (naturalSpace a).1, (r.map muWidth).getD (naturalSpace a).2)
  | _ => (0, 0)

/-- The space on the left and on the right of an element which is shown for an atom: the one of its core, and the
padding -/
def shownSpace (a : Atom) (n : Node) : Nat × Nat :=
  match n with
  | .padded _ _ _ l r _ =>
    ((l.map muWidth).getD 0 + (coreSpace a (core n)).1, (r.map muWidth).getD 0 + (coreSpace a (core n)).2)
  | _ => coreSpace a (core n)

/-- The spaces between elements -/
def gaps : List (Nat × Nat) → List Nat
  | (_, r) :: (l, r') :: rest => (r + l) :: gaps ((l, r') :: rest)
  | _ => []

/-- The elements which are shown for atoms have the given spaces between them, and none at the beginning and at the
end. -/
def ShownWith (as : List Atom) (ns : List Node) (spaces : List Nat) : Prop :=
  as.length = ns.length ∧
  (∀ p ∈ (List.zipWith shownSpace as ns).head?, p.1 = 0) ∧ (∀ p ∈ (List.zipWith shownSpace as ns).getLast?, p.2 = 0) ∧
  gaps (List.zipWith shownSpace as ns) = spaces

/-! ### Where the converter differs from TeX -/

/-- Where the space between two atoms (of final types `a` and `b'`, where the second was written as `b`) differs
from the one of TeX:
* in script styles, there is a thin space between a binary operator and an operator like `\sum`;
* there are two thin spaces between two atoms of type inner, not one;
* there is no space between an atom of type inner and a binary operator which has become an ordinary atom. -/
def differs (st : Style) (a b b' : Atom) : Bool :=
  (small st && a = .bin && b = .op) || (!small st && a = .inner && (b = .inner || (b = .bin && b' = .ord)))

/-- The atoms have no such neighbours. -/
def regular (st : Style) (prev : Option Atom) : List Atom → Bool
  | [] => true
  | b :: rest =>
    let b' := finalAtom prev b rest.head?
    (match prev with
      | some a => !differs st a b b'
      | none => true) &&
    regular st (some b') rest

end Verif.Spec

import Verif.Lemmas.TexTables
import Verif.Props.Spacing
/-! Symbols of LaTeX as parts of formulas. -/
namespace Verif
open Model Spec

mutual
/-- An element as something which is shown. (Symbols are in `mi` or in `mo`.) -/
def Spec.Shape.tree : Shape → Tree
  | .op c | .letter _ c => .sym c.text
  | .funcName s | .word s => .sym s
  | .nothing => .node c!"mrow" []
  | .pre base sub sup => .node c!"mmultiscripts" [base.tree, .leaf c!"mprescripts" [], sub.tree, sup.tree]
  | .leaf name s => .leaf name s
  | .elem name kids => .node name (Shape.trees kids)
/-- The same for lists -/
def Spec.Shape.trees : List Shape → List Tree
  | [] => []
  | s :: ss => s.tree :: Shape.trees ss
end

/-- The tokens of lexemes -/
def tks (ls : List Lexeme) : List Tk := ls.map fun l => ⟨l.tok, l.tight⟩

theorem tks_append (a b : List Lexeme) : tks (a ++ b) = tks a ++ tks b := List.map_append

theorem tks_cons (a : Lexeme) (b : List Lexeme) : tks (a :: b) = ⟨a.tok, a.tight⟩ :: tks b := rfl

/-! ### Characters -/

theorem tryAsChar_text {s : SuperChar} {c : Char} (h : s.tryAsChar = some c) (hc : c ≠ '\x00') : s.text = [c] := by
  unfold SuperChar.tryAsChar at h
  split at h
  · rename_i he
    have he : s &&& charMask = s := by simpa using he
    have h := Option.some.inj h
    unfold SuperChar.baseChar at h
    rw [he] at h
    have hv : s.toNat.isValidChar := by
      by_cases hv : s.toNat.isValidChar
      · exact hv
      · exfalso
        apply hc
        rw [← h]
        unfold Char.ofNat
        rw [dif_neg hv]
        rfl
    have hs : s = SuperChar.fromChar c := by
      unfold SuperChar.fromChar
      apply BitVec.eq_of_toNat_eq
      rw [BitVec.toNat_ofNat]
      have : c.toNat = s.toNat := by
        rw [← h]
        unfold Char.ofNat
        rw [dif_pos hv]
        rfl
      rw [this]
      have := s.isLt
      omega
    rw [hs, fromChar_eq, symWord_text]
    rfl
  · cases h

theorem digit_ascii : ((List.range 128).all fun n => !isAsciiDigit (Char.ofNat n) ||
    sameTok (Lexer.charToken (Char.ofNat n)) (.digit (Char.ofNat n))) = true := by decide +kernel

theorem alpha_ascii : ((List.range 128).all fun n => !isAsciiAlpha (Char.ofNat n) ||
    sameTok (Lexer.charToken (Char.ofNat n)) (Lexer.letterTok (Char.ofNat n))) = true := by decide +kernel

theorem ascii_of_digit {c : Char} (h : isAsciiDigit c = true) : c.toNat < 128 := by
  simp only [isAsciiDigit, Bool.and_eq_true, decide_eq_true_eq] at h
  have h2 : c.val.toNat ≤ '9'.val.toNat := h.2
  have : '9'.val.toNat = 57 := rfl
  have : c.toNat = c.val.toNat := rfl
  omega

theorem ascii_of_alpha {c : Char} (h : isAsciiAlpha c = true) : c.toNat < 128 := by
  simp only [isAsciiAlpha, Bool.or_eq_true, Bool.and_eq_true, decide_eq_true_eq] at h
  have : 'z'.val.toNat = 122 := rfl
  have : 'Z'.val.toNat = 90 := rfl
  have : c.toNat = c.val.toNat := rfl
  rcases h with h | h
  · have h2 : c.val.toNat ≤ 'z'.val.toNat := h.2
    omega
  · have h2 : c.val.toNat ≤ 'Z'.val.toNat := h.2
    omega

theorem digit_token {c : Char} (h : isAsciiDigit c = true) : Lexer.charToken c = .digit c := by
  have := List.all_eq_true.1 digit_ascii _ (List.mem_range.2 (ascii_of_digit h))
  rw [Char.ofNat_toNat, h] at this
  exact sameTok_eq this

theorem alpha_token {c : Char} (h : isAsciiAlpha c = true) : Lexer.charToken c = Lexer.letterTok c := by
  have := List.all_eq_true.1 alpha_ascii _ (List.mem_range.2 (ascii_of_alpha h))
  rw [Char.ofNat_toNat, h] at this
  exact sameTok_eq this

/-! ### Parts of formulas -/

/-- What scripts are attached to, as part of a formula -/
inductive Head
  | base (b : Base)
  | big (o : BigOp)
  | func (x : Func) (limits : Bool)

namespace Head

/-- The formula which begins with it -/
def form : Head → Scripts → Form → Form
  | .base b, s, r => .item b s r
  | .big o, s, r => .bigOp o s r
  | .func x w, s, r => .func x w s r

/-- Its tokens -/
def tokens : Head → List Tk
  | .base b => b.tokens
  | .big o => ⟨o.token, false⟩ :: limitsTokens o.lim
  | .func x w => x.tokens w

/-- It is what the grammar says. -/
def ok (bracket : Bool) (after : List Tk) : Head → Bool
  | .base b => b.ok bracket after
  | .big o => o.ok
  | .func x _ => x.ok

/-- Calls are expanded correctly. -/
def linked (M : Macros) : Head → Prop
  | .base b => b.linked M
  | _ => True

/-- No known defects -/
def tame : Head → Bool
  | .base b => b.tame
  | .big _ => true
  | .func x _ => plainName x.name.shown

/-- No numbers -/
def unbroken : Head → Bool
  | .base b => b.unbroken
  | _ => true

/-- What is shown -/
def shape (labels : Str → Option Str) : Head → Shape
  | .base b => b.shape labels
  | .big o => symbolShape o.op.asOp
  | .func x _ => .funcName x.name.shown

/-- Where scripts are put -/
def limits : Head → Bool
  | .base _ => false
  | .big o => o.op.cat ≠ .C && limitsSet o.lim (o.op.cat = .J)
  | .func x w => limitsSet x.lim w

/-- It means something at every place, and changes nothing. -/
def steady : Head → Prop
  | .base b => ∀ l p nxt, ∃ r, b.denote l p nxt = .ok (r, l)
  | _ => True

end Head

/-- Scripts in front -/
def preScripted : Shape → Bool
  | .pre _ _ _ => true
  | _ => false

/-- Primes, `^` and `_` -/
def scriptTok : Token → Bool
  | .prime _ | .circumflex | .underscore => true
  | _ => false

/-- Is this the beginning of a script? -/
def startsScript (t : Token) : Bool := scriptTok t.unwrapMath

/-- A digit -/
def isDigitTok : Token → Bool
  | .digit _ => true
  | _ => false

/-- A part of a formula which is right for something of LaTeX -/
structure HeadGood (ls : List Lexeme) (tree : Tree) (limits bracket : Bool) (follows : List Tk → Prop) (h : Head) : Prop where
  fixed : ∀ l ∈ ls, l.fixed = true
  tokens : h.tokens = tks ls
  first : ∃ t ts, tks ls = ⟨t, false⟩ :: ts ∧ startsScript t = false
  ok : ∀ after, follows after → h.ok bracket after = true
  linked : ∀ M, h.linked M
  tame : h.tame = true
  unbroken : h.unbroken = true
  steady : h.steady
  shape : ∀ labels, (h.shape labels).tree = tree ∧ preScripted (h.shape labels) = false
  limits : h.limits = limits

/-! ### Symbols -/

/-- What a token is which stands for a symbol -/
theorem stands_cases {t : Token} {x : Symbol} (h : stands t x = true) :
    (∃ d, t = .digit d ∧ x.char = d ∧ x.type = .ord) ∨
    (∃ o : BigOp, o.lim = none ∧ o.token = t ∧ x.type = .op ∧ o.op.asOp.sc.tryAsChar = some x.char ∧
      startsScript t = false ∧ ∀ b, limitsRight t x = b → ((decide (o.op.cat ≠ .C) && decide (o.op.cat = .J)) == x.limits) = b) ∨
    (plainAtom t.unwrapMath = some x.type ∧ (atomShape t.unwrapMath).char = some x.char) := by
  have ha := stands_atom h
  have hg := stands_glyph h
  unfold atomOf at ha
  unfold glyph at hg
  cases t
  case digit d => exact Or.inl ⟨d, rfl, (Option.some.inj hg).symm, (Option.some.inj ha).symm⟩
  case op o => exact Or.inr (Or.inl ⟨⟨o, none, none⟩, rfl, rfl, (Option.some.inj ha).symm, hg, rfl, fun _ h => h⟩)
  case mathOrTextMode t' c =>
    cases t'
    case op o => exact Or.inr (Or.inl ⟨⟨o, none, some c⟩, rfl, rfl, (Option.some.inj ha).symm, hg, rfl, fun _ h => h⟩)
    all_goals exact Or.inr (Or.inr ⟨ha, hg⟩)
  case pseudoOperator => cases hg
  case pseudoOperatorLimits => cases hg
  all_goals exact Or.inr (Or.inr ⟨ha, hg⟩)

theorem plain_tree {u : Token} {a : Atom} {c : Char} (h : plainAtom u = some a) (hg : (atomShape u).char = some c)
    (hc : c ≠ '\x00') : (atomShape u).tree = .sym [c] ∧ preScripted (atomShape u) = false ∧ a ≠ .op ∧
      (u = .squareBracketOpen → c = '[') ∧ (u = .squareBracketClose → c = ']') ∧ (∀ d, u ≠ .digit d) ∧ isAtom u = true ∧
      scriptTok u = false := by
  have key : ∀ s : SuperChar, s.tryAsChar = some c → Tree.sym s.text = .sym [c] := fun s hs => by rw [tryAsChar_text hs hc]
  have hb : ∀ s : SuperChar, s.tryAsChar = some '[' → (atomShape Token.squareBracketOpen).char = some '[' := fun _ _ => rfl
  unfold plainAtom at h
  cases u <;> simp only [Option.some.injEq, reduceCtorEq] at h <;> subst h <;>
    refine ⟨key _ hg, rfl, by decide, ?_, ?_, nofun, rfl, rfl⟩ <;> intro e <;> first
      | cases e; done
      | (have h' : some '[' = some c := hg
         exact (Option.some.inj h').symm)
      | (have h' : some ']' = some c := hg
         exact (Option.some.inj h').symm)

/-- A symbol as part of a formula -/
theorem symbol_head {t : Token} {x : Symbol} {ls : List Lexeme} {bracket : Bool} (h : stands t x = true)
    (hl : limitsRight t x = true) (hd : ∀ d, t ≠ .digit d) (hc : x.char ≠ '\x00') (hb : bracket = true → x.char ≠ ']')
    (hf : ∀ l ∈ ls, l.fixed = true) (hs : tks ls = [⟨t, false⟩]) (follows : List Tk → Prop) :
    ∃ hd, HeadGood ls (.sym [x.char]) x.limits bracket follows hd := by
  rcases stands_cases h with ⟨d, e, -⟩ | ⟨o, h1, h2, h3, h4, h5, h6⟩ | ⟨h1, h2⟩
  · exact absurd e (hd d)
  · refine ⟨.big o, hf, ?_, ⟨t, [], hs, h5⟩, fun _ _ => ?_, fun _ => trivial, rfl, rfl, trivial, fun _ => ⟨?_, rfl⟩, ?_⟩
    · show _ :: limitsTokens o.lim = _
      rw [h1, hs, h2]
      rfl
    · show (_ || o.lim.isNone) = true
      rw [h1]
      simp
    · show Tree.sym o.op.asOp.sc.text = _
      rw [tryAsChar_text h4 hc]
    · show (_ && limitsSet o.lim _) = _
      rw [h1]
      have h7 := h6 _ hl
      exact beq_iff_eq.1 h7
  · obtain ⟨k1, k2, k3, k4, k5, k6, k7, k8⟩ := plain_tree h1 h2 hc
    refine ⟨.base (.atom t), hf, hs.symm, ⟨t, [], hs, k8⟩, fun _ _ => ?_, fun _ => trivial, rfl, rfl, fun l p nxt => ⟨_, rfl⟩,
      fun _ => ⟨k1, k2⟩, ?_⟩
    · show (isAtom t.unwrapMath && !(bracket && _)) = true
      rw [k7]
      cases bracket with
      | false => rfl
      | true =>
        have k9 : t ≠ .squareBracketClose := fun e => hb rfl (k5 (by rw [e]; rfl))
        cases t <;> first | rfl | exact absurd rfl k9
    · show false = (decide (x.type = .op) && _)
      rw [decide_eq_false k3]
      rfl

/-- An argument which is right for something of LaTeX -/
structure ArgGood (ls : List Lexeme) (tree : Tree) (a : Arg) : Prop where
  fixed : ∀ l ∈ ls, l.fixed = true
  tokens : a.tokens = tks ls
  ok : a.ok = true
  linked : ∀ M, a.linked M
  tame : a.tame = true
  unbroken : a.unbroken = true
  steady : ∀ reset l, ∃ n, a.denote reset l = .ok (n, l)
  inner : ∀ f, a = .braces f → ∀ l p nxt, ∃ ns, f.denote l p nxt = .ok (ns, l)
  shape : ∀ labels, (a.shape labels).tree = tree

/-- A symbol as an argument -/
theorem symbol_arg {t : Token} {x : Symbol} {ls : List Lexeme} (h : stands t x = true) (ho : x.type ≠ .op)
    (hc : x.char ≠ '\x00') (hb : x.char ≠ '[') (hf : ∀ l ∈ ls, l.fixed = true) (hs : tks ls = [⟨t, false⟩]) :
    ArgGood ls (if isDigitTok t then .leaf c!"mn" [x.char] else .sym [x.char]) (.tok t) := by
  have key : (Arg.tok t).ok = true ∧ (aloneShape t).tree = (if isDigitTok t then .leaf c!"mn" [x.char] else .sym [x.char]) ∧
      ∀ reset l, ∃ n, (Arg.tok t).denote reset l = .ok (n, l) := by
    refine ⟨?_, ?_, ?_⟩
    · rcases stands_cases h with ⟨d, rfl, -⟩ | ⟨o, h1, h2, h3, -⟩ | ⟨h1, h2⟩
      · rfl
      · exact absurd h3 ho
      · obtain ⟨k1, k2, k3, k4, k5, k6, k7, k8⟩ := plain_tree h1 h2 hc
        unfold Arg.ok
        split
        · rfl
        · rename_i e
          exact absurd (k4 e) hb
        · exact k7
    · rcases stands_cases h with ⟨d, rfl, h2, -⟩ | ⟨o, h1, h2, h3, -⟩ | ⟨h1, h2⟩
      · rw [h2]
        rfl
      · exact absurd h3 ho
      · obtain ⟨k1, k2, k3, k4, k5, k6, k7, k8⟩ := plain_tree h1 h2 hc
        have : isDigitTok t = false := by
          cases t <;> first | rfl | exact absurd rfl (k6 _)
        rw [this]
        unfold aloneShape
        split
        · rename_i e
          exact absurd e (k6 _)
        · exact k1
    · intro reset l
      unfold Arg.denote
      split <;> exact ⟨_, rfl⟩
  exact ⟨hf, hs.symm, key.1, fun _ => trivial, rfl, rfl, key.2.2, nofun, fun _ => key.2.1⟩

end Verif

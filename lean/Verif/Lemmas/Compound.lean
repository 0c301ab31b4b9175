import Verif.Lemmas.Even
import Verif.Lemmas.Witness
import Verif.Spec.Compound
import Verif.Lemmas.TexMain
import Verif.Lemmas.TexPrint
/-! Commands which stand for several symbols. -/
namespace Verif
open Model Spec

/-- A token of a body: a symbol or a space -/
def plainItem (t : Token) (x : Option Nat) : Bool :=
  isAtom t.unwrapMath && !t.isWs && !startsScript t && !preScripted (atomShape t.unwrapMath) &&
  (match t with | .customCmdArg _ => false | _ => true) &&
  (match (atomShape t.unwrapMath).tree, compoundTree x with
    | .sym s, .sym s' => s == s'
    | .leaf n s, .leaf n' s' => n == n' && s == s'
    | _, _ => false)

/-- The same for bodies -/
def plainItems : List Token → List (Option Nat) → Bool
  | [], [] => true
  | t :: ts, x :: xs => plainItem t x && plainItems ts xs
  | _, _ => false

/-- The body of a command without arguments -/
def bodyOf : Token → List Token
  | .customCmd 0 body | .mathOrTextMode (.customCmd 0 body) _ => body
  | _ => []

/-- The command is one with this meaning. -/
def compoundKnown (row : CompoundRow) : Bool :=
  match fixedTok row.name with
  | some t => !(bodyOf t).isEmpty && plainItems (bodyOf t) row.shown
  | _ => false

set_option maxRecDepth 100000 in
theorem compound_table : (compoundRows.all compoundKnown) = true := by decide +kernel

theorem compound_known {row : CompoundRow} (h : row ∈ compoundRows) :
    ∃ tok, fixedTok row.name = some tok ∧ bodyOf tok ≠ [] ∧ plainItems (bodyOf tok) row.shown = true := by
  have := List.all_eq_true.1 compound_table row h
  unfold compoundKnown at this
  split at this
  · next t e =>
    simp only [Bool.and_eq_true, Bool.not_eq_true', List.isEmpty_eq_false_iff] at this
    exact ⟨t, e, this⟩
  · cases this

theorem bodyOf_call {tok : Token} (h : bodyOf tok ≠ []) : isCall tok = true ∧ startsScript tok = false ∧ continuesNumber tok = false ∧
    ∀ cfg st, macrosOf cfg st tok = some (0, (bodyOf tok).map fun t => pieceOf (st.resolveCommand cfg.builtin) (.token t)) := by
  unfold bodyOf at h ⊢
  split at h
  · exact ⟨rfl, rfl, rfl, fun _ _ => rfl⟩
  · exact ⟨rfl, rfl, rfl, fun _ _ => rfl⟩
  · exact absurd rfl h

theorem plainItem_facts {t : Token} {x : Option Nat} (h : plainItem t x = true) :
    isAtom t.unwrapMath = true ∧ t.isWs = false ∧ startsScript t = false ∧ preScripted (atomShape t.unwrapMath) = false ∧
    (∀ known, pieceOf known (.token t) = .tok t) ∧ (atomShape t.unwrapMath).tree = compoundTree x := by
  unfold plainItem at h
  simp only [Bool.and_eq_true, Bool.not_eq_true'] at h
  obtain ⟨⟨⟨⟨⟨h1, h2⟩, h3⟩, h4⟩, h5⟩, h6⟩ := h
  refine ⟨h1, h2, h3, h4, fun known => ?_, ?_⟩
  · cases t <;> first | rfl | cases h5
  · revert h6
    generalize (atomShape t.unwrapMath).tree = a
    generalize compoundTree x = b
    intro h6
    cases a <;> cases b <;> first
      | cases h6; done
      | (simp only [Bool.and_eq_true, beq_iff_eq] at h6; simp only [h6])

/-- The symbols of a body in front of a formula -/
def bodyForm : List Token → Form → Form
  | [], r => r
  | t :: ts, r => .item (.atom t) .nil (bodyForm ts r)

theorem body_tokens (body : List Token) (r : Form) : (bodyForm body r).tokens = body.map (⟨·, false⟩) ++ r.tokens := by
  induction body with
  | nil => rfl
  | cons t ts ih =>
    show ([⟨t, false⟩] ++ [] ++ (bodyForm ts r).tokens : List Tk) = _
    rw [ih]
    rfl

theorem body_ok {r : Form} (hr : r.ok false = true) : ∀ {body : List Token} {xs : List (Option Nat)},
    plainItems body xs = true → (bodyForm body r).ok false = true
  | [], _, _ => hr
  | t :: ts, [], h => by cases h
  | t :: ts, x :: xs, h => by
    simp only [plainItems, Bool.and_eq_true] at h
    show ((isAtom t.unwrapMath && !(false && _)) && true && (bodyForm ts r).ok false) = true
    rw [(plainItem_facts h.1).1, body_ok hr h.2]
    rfl

theorem body_linked {r : Form} {M : Macros} (hr : r.linked M) : ∀ body, (bodyForm body r).linked M
  | [] => hr
  | _ :: ts => ⟨trivial, trivial, body_linked hr ts⟩

theorem body_tame {r : Form} {sep : Bool} (hr : r.tame sep = true) : ∀ body, (bodyForm body r).tame sep = true
  | [] => hr
  | _ :: ts => by
    show (true && true && (bodyForm ts r).tame sep) = true
    rw [body_tame hr ts]
    rfl

theorem body_unbroken {r : Form} (hr : r.unbroken = true) : ∀ body, (bodyForm body r).unbroken = true
  | [] => hr
  | _ :: ts => by
    show (true && true && (bodyForm ts r).unbroken) = true
    rw [body_unbroken hr ts]
    rfl

theorem body_steady {r : Form} {l l' : Loc} {nxt : Class} (hr : ∀ p, ∃ ns, r.denote l p nxt = .ok (ns, l')) :
    ∀ body p, ∃ ns, (bodyForm body r).denote l p nxt = .ok (ns, l')
  | [] => hr
  | t :: ts => fun p => head_steady (h := .base (.atom t)) (s := .nil) (fun _ _ _ => ⟨_, rfl⟩) ⟨_, rfl⟩ (body_steady hr ts) p

theorem body_loosens : ∀ {body : List Token} {xs : List (Option Nat)} (known : Str → Option Token),
    plainItems body xs = true → Loosens (body.map (⟨·, false⟩)) (expandTks [] false (body.map fun t => pieceOf known (.token t)))
  | [], _, _, _ => .nil
  | t :: ts, [], _, h => by cases h
  | t :: ts, x :: xs, known, h => by
    simp only [plainItems, Bool.and_eq_true] at h
    obtain ⟨-, h2, -, -, h5, -⟩ := plainItem_facts h.1
    rw [List.map_cons, List.map_cons, h5, expandTks, h2]
    exact .cons nofun (body_loosens known h.2)

theorem body_pieces {r : Form} (labels : Str → Option Str) : ∀ {body : List Token} {xs : List (Option Nat)}, plainItems body xs = true →
    ∃ ss, (bodyForm body r).pieces labels = ss.map .shape ++ r.pieces labels ∧ Shape.trees ss = xs.map compoundTree ∧
      ∀ s ∈ ss, preScripted s = false
  | [], [], _ => ⟨[], rfl, rfl, nofun⟩
  | [], _ :: _, h => by cases h
  | t :: ts, [], h => by cases h
  | t :: ts, x :: xs, h => by
    simp only [plainItems, Bool.and_eq_true] at h
    obtain ⟨-, -, -, h4, -, h6⟩ := plainItem_facts h.1
    obtain ⟨ss, e1, e2, e3⟩ := body_pieces labels h.2
    refine ⟨atomShape t.unwrapMath :: ss, ?_, ?_, ?_⟩
    · show ShapePiece.shape ((atomShape t.unwrapMath).withScripts (none, none)) :: (bodyForm ts r).pieces labels = _
      rw [e1]
      cases atomShape t.unwrapMath <;> rfl
    · show (atomShape t.unwrapMath).tree :: Shape.trees ss = _
      rw [h6, e2]
      rfl
    · intro s hs
      rcases List.mem_cons.1 hs with rfl | hs
      · exact h4
      · exact e3 s hs

theorem body_noParam : ∀ {body : List Token} {xs : List (Option Nat)}, plainItems body xs = true → ∀ t ∈ body,
    ∀ {known : Str → Option Token} (i : Nat), pieceOf known (.token t) ≠ .param i
  | [], _, _, t, ht => by cases ht
  | _ :: _, [], h, _, _ => by cases h
  | u :: ts, x :: xs, h, t, ht => by
    simp only [plainItems, Bool.and_eq_true] at h
    intro i
    rcases List.mem_cons.1 ht with rfl | ht
    · rw [(plainItem_facts h.1).2.2.2.2.1]
      nofun
    · exact body_noParam h.2 t ht i

/-! ### Commands with an argument -/

/-- The symbols before and after the argument -/
def wrapOf : Token → Option (Token × Token)
  | .customCmd 1 [x, .customCmdArg 0, y] => some (x, y)
  | _ => none

/-- The command is one with this meaning. -/
def wrapKnown (row : WrapRow) : Bool :=
  match (fixedTok row.name).bind wrapOf with
  | some (x, y) => plainItem x (some row.opening) && plainItem y (some row.closing) && !continuesNumber y
  | _ => false

theorem wrap_table : (wrapRows.all wrapKnown) = true := by decide +kernel

theorem wrap_known {row : WrapRow} (h : row ∈ wrapRows) : ∃ x y, fixedTok row.name = some (.customCmd 1 [x, .customCmdArg 0, y]) ∧
    plainItem x (some row.opening) = true ∧ plainItem y (some row.closing) = true ∧ continuesNumber y = false := by
  have := List.all_eq_true.1 wrap_table row h
  unfold wrapKnown at this
  split at this
  · next x y e =>
    rw [Option.bind_eq_some_iff] at e
    obtain ⟨t, e1, e2⟩ := e
    unfold wrapOf at e2
    split at e2
    · cases e2
      simp only [Bool.and_eq_true, Bool.not_eq_true'] at this
      exact ⟨x, y, e1, this.1.1, this.1.2, this.2⟩
    · cases e2
  · cases this

/-- A token which can be in an argument, and is no brace -/
def argTok (t : Token) : Bool := !t.isWs && !t.isEoi && Named t && (match t with | .groupBegin | .groupEnd => false | _ => true)

theorem argTok_char {c : Char} (h1 : c ≠ '{') (h2 : c ≠ '}') : argTok (Lexer.charToken c) = true := by
  unfold Lexer.charToken
  split <;> try rfl
  · exact absurd rfl h1
  · exact absurd rfl h2
  split
  · rfl
  · split
    · rfl
    · split
      · rename_i h
        unfold getOperatorFromUnicode at h
        rw [Option.map_eq_some_iff] at h
        obtain ⟨_, _, rfl⟩ := h
        rfl
      · rfl

set_option maxRecDepth 100000 in
theorem argTok_commands : (commands.all fun r => [c!"begingroup", c!"endgroup"].contains r.1 || argTok r.2) = true := by decide +kernel

theorem argTok_command {name : Str} (h : [c!"begingroup", c!"endgroup"].contains name = false) : argTok ((fixedTok name).getD .relax) = true := by
  unfold fixedTok
  split
  · cases hc : commands.lookup name with
    | some t =>
      have := List.all_eq_true.1 argTok_commands (name, t) (entry_known hc)
      rw [h] at this
      exact this
    | none =>
      cases functions.contains name <;> rfl
  · rfl

theorem argTok_facts {t : Token} (h : argTok t = true) : (!t.isWs && !t.isEoi && Named t) = true ∧
    ∀ d ts, braceDepth d (t :: ts) = braceDepth d ts := by
  unfold argTok at h
  rw [Bool.and_eq_true] at h
  refine ⟨h.1, fun d ts => ?_⟩
  cases t <;> first
    | (cases h.2; done)
    | (cases d <;> rfl)

theorem even_arg : ∀ {ls : List Lexeme} {d : Nat}, evenBraces d ls = true →
    (tks ls).all (fun x => !x.tok.isWs && !x.tok.isEoi && Named x.tok) = true ∧ braceDepth d ((tks ls).map (·.tok)) = some 0 := by
  intro ls
  induction ls with
  | nil =>
    intro d h
    have : d = 0 := by simpa [evenBraces] using h
    subst this
    exact ⟨rfl, rfl⟩
  | cons l ls ih =>
    intro d h
    rw [tks_cons, List.all_cons, List.map_cons, Bool.and_eq_true]
    have plain : argTok l.tok = true → evenBraces d ls = true →
        ((!l.tok.isWs && !l.tok.isEoi && Named l.tok) = true ∧ (tks ls).all (fun x => !x.tok.isWs && !x.tok.isEoi && Named x.tok) = true) ∧
          braceDepth d (l.tok :: (tks ls).map (·.tok)) = some 0 := fun ht h => by
      obtain ⟨h1, h2⟩ := argTok_facts ht
      rw [h2]
      exact ⟨⟨h1, (ih h).1⟩, (ih h).2⟩
    have braces : ∀ c, l.tok = Lexer.charToken c → (if c = '{' then evenBraces (d + 1) ls
        else if c = '}' then d != 0 && evenBraces (d - 1) ls else evenBraces d ls) = true →
        ((!l.tok.isWs && !l.tok.isEoi && Named l.tok) = true ∧ (tks ls).all (fun x => !x.tok.isWs && !x.tok.isEoi && Named x.tok) = true) ∧
          braceDepth d (l.tok :: (tks ls).map (·.tok)) = some 0 := fun c hc h => by
      by_cases h1 : c = '{'
      · subst h1
        rw [if_pos rfl] at h
        rw [hc]
        exact ⟨⟨rfl, (ih h).1⟩, (ih h).2⟩
      · rw [if_neg h1] at h
        by_cases h2 : c = '}'
        · subst h2
          rw [if_pos rfl, Bool.and_eq_true] at h
          rw [hc]
          cases d with
          | zero => cases h.1
          | succ d => exact ⟨⟨rfl, (ih h.2).1⟩, (ih h.2).2⟩
        · rw [if_neg h2] at h
          exact plain (hc ▸ argTok_char h1 h2) h
    cases l with
    | char c => exact braces c rfl h
    | next c => exact braces c rfl h
    | blank => cases h
    | command name =>
      simp only [evenBraces, Bool.and_eq_true, Bool.not_eq_true'] at h
      exact plain (argTok_command h.1) h.2
    | opens name => exact plain rfl h
    | closes name => exact plain rfl h

/-- What such a command expands to -/
theorem wrap_loosens {x y : Token} {o c : Option Nat} (hx : plainItem x o = true) (hy : plainItem y c = true) {as : List Tk} (hne : as ≠ [])
    (known : Str → Option Token) : Loosens (⟨x, false⟩ :: (as ++ [⟨y, false⟩]))
      (expandTks [.braces as] false ([x, .customCmdArg 0, y].map fun t => pieceOf known (.token t))) := by
  obtain ⟨-, x2, -, -, x5, -⟩ := plainItem_facts hx
  obtain ⟨-, y2, -, -, y5, -⟩ := plainItem_facts hy
  simp only [List.map_cons, List.map_nil, x5, y5]
  rw [expandTks, x2]
  refine .cons nofun ?_
  show Loosens _ (match some as with
    | some (x :: xs) => _
    | _ => _)
  cases as with
  | nil => exact absurd rfl hne
  | cons z zs =>
    show Loosens ((z :: zs) ++ [⟨y, false⟩]) (⟨z.tok, z.tight && true⟩ :: zs ++ expandTks _ true [.tok y])
    rw [Bool.and_true, expandTks, y2]
    have same : ∀ l : List Tk, Loosens (l ++ [⟨y, false⟩]) (l ++ [⟨y, !true⟩]) := by
      intro l
      induction l with
      | nil => exact .cons id .nil
      | cons w l ih => exact .cons id ih
    exact same (z :: zs)

theorem wrap_params {x y : Token} {o c : Option Nat} (hx : plainItem x o = true) (hy : plainItem y c = true)
    (known : Str → Option Token) (i : Nat) (hi : .param i ∈ [x, .customCmdArg 0, y].map fun t => pieceOf known (.token t)) : i < 9 := by
  obtain ⟨-, -, -, -, x5, -⟩ := plainItem_facts hx
  obtain ⟨-, -, -, -, y5, -⟩ := plainItem_facts hy
  simp only [List.map_cons, List.map_nil, x5, y5, List.mem_cons, List.not_mem_nil, or_false] at hi
  rcases hi with hi | hi | hi
  · cases hi
  · cases hi
    decide
  · cases hi

/-- The tokens for which such a command with high delimiters stands -/
def fenceBody (row : FenceRow) : List Token := [.left, row.left.written.tok, .customCmdArg 0, .right, row.right.written.tok]

theorem fence_known {row : FenceRow} (h : row ∈ fenceRows) : fixedTok row.name = some (.customCmd 1 (fenceBody row)) ∧
    row.left ∈ delimRows ∧ row.right ∈ delimRows := by
  rcases List.mem_cons.1 h with rfl | h
  · exact ⟨by kernel_rfl, by decide, by decide⟩
  · rcases List.mem_cons.1 h with rfl | h
    · exact ⟨by kernel_rfl, by decide, by decide⟩
    · cases h

theorem fence_pieces {row : FenceRow} (h : row ∈ fenceRows) (known : Str → Option Token) :
    ((fenceBody row).map fun t => pieceOf known (.token t)) =
      [.tok .left, .tok row.left.written.tok, .param 0, .tok .right, .tok row.right.written.tok] ∧
    row.left.written.tok.isWs = false ∧ row.right.written.tok.isWs = false := by
  rcases List.mem_cons.1 h with rfl | h
  · exact ⟨by kernel_rfl, by kernel_rfl, by kernel_rfl⟩
  · rcases List.mem_cons.1 h with rfl | h
    · exact ⟨by kernel_rfl, by kernel_rfl, by kernel_rfl⟩
    · cases h

/-- What such a command expands to -/
theorem fence_loosens {row : FenceRow} (h : row ∈ fenceRows) {as : List Tk} (hne : as ≠ []) (known : Str → Option Token) :
    Loosens (⟨.left, false⟩ :: ⟨row.left.written.tok, false⟩ :: (as ++ [⟨.right, false⟩, ⟨row.right.written.tok, false⟩]))
      (expandTks [.braces as] false ((fenceBody row).map fun t => pieceOf known (.token t))) := by
  obtain ⟨h1, h2, h3⟩ := fence_pieces h known
  rw [h1, expandTks]
  refine Loosens.cons (b := false) nofun ?_
  rw [expandTks, h2]
  refine Loosens.cons (b := false) nofun ?_
  show Loosens _ (match some as with
    | some (x :: xs) => _
    | _ => _)
  cases as with
  | nil => exact absurd rfl hne
  | cons z zs =>
    show Loosens ((z :: zs) ++ [⟨.right, false⟩, ⟨row.right.written.tok, false⟩])
      (⟨z.tok, z.tight && true⟩ :: zs ++ expandTks _ true [.tok .right, .tok row.right.written.tok])
    have e : ∀ bs : List CallArg, expandTks bs true [.tok .right, .tok row.right.written.tok] =
        [⟨.right, !true⟩, ⟨row.right.written.tok, !false⟩] := fun bs => by
      rw [expandTks]
      show _ :: expandTks bs false _ = _
      rw [expandTks, h3]
      rfl
    rw [Bool.and_true, e]
    have same : ∀ l : List Tk, Loosens (l ++ [⟨.right, false⟩, ⟨row.right.written.tok, false⟩]) (l ++ [⟨.right, !true⟩, ⟨row.right.written.tok, !false⟩]) := by
      intro l
      induction l with
      | nil => exact .cons id (.cons nofun .nil)
      | cons w l ih => exact .cons id ih
    exact same (z :: zs)

theorem fence_params {row : FenceRow} (h : row ∈ fenceRows) (known : Str → Option Token) (i : Nat)
    (hi : .param i ∈ (fenceBody row).map fun t => pieceOf known (.token t)) : i < 9 := by
  rw [(fence_pieces h known).1] at hi
  simp only [List.mem_cons, List.not_mem_nil, or_false, reduceCtorEq, false_or] at hi
  cases hi
  decide

/-- No script belongs to what is before a formula. -/
theorem starts_script (hs : Starts ts) : headNot startsScript ts = true := by
  obtain ⟨t, rest, rfl, h⟩ := hs
  have h3 := (clean_iff.1 h).2.2.1
  show (!startsScript t.tok) = true
  unfold startsScript
  revert h3
  cases t.tok.unwrapMath <;> first | (intro _; rfl) | (intro h; cases h)

theorem form_first {f : Form} {br : Bool} (h : f.ok br = true) : headNot startsScript f.tokens = true := by
  have := starts_script (form_starts (ts := [⟨.eoi, false⟩]) h ⟨_, _, rfl, rfl⟩)
  cases e : f.tokens with
  | nil => rfl
  | cons t ts => rwa [e] at this

/-! ### The first lexeme -/

/-- There may be whitespace in front. -/
def looseStart : List Lexeme → Bool
  | [] => true
  | l :: _ => !l.tight

theorem nuc_loose {n : Nuc} {bracket : Bool} {s : Scr} {after : List Lexeme} (h : n.proper bracket s after = true) :
    ∃ l ls, n.lexemes = l :: ls ∧ l.tight = false := by
  cases n with
  | number w d =>
    cases w with
    | nil => cases h
    | cons c w => exact ⟨_, _, rfl, rfl⟩
  | _ => exact ⟨_, _, rfl, rfl⟩

theorem tex_loose {t : Tex} {bracket cell : Bool} (h : t.proper bracket cell = true) (after : List Lexeme)
    (ha : looseStart after = true) : looseStart (t.lexemes ++ after) = true := by
  cases t with
  | nil => exact ha
  | item n s rest =>
    simp only [Tex.proper, Bool.and_eq_true] at h
    obtain ⟨l, ls, e, hl⟩ := nuc_loose h.1.1
    show looseStart ((n.lexemes ++ _) ++ after) = true
    rw [e]
    show (!l.tight) = true
    rw [hl]
    rfl
  | style name rest => rfl
  | color x rest => rfl

theorem chain_loose : ∀ {x : Chain}, x.proper = true → looseStart x.lexemes = true
  | .last f, h => by
    have := tex_loose (t := f) h [] rfl
    rwa [List.append_nil] at this
  | .link f row rest, h => by
    simp only [Chain.proper, Bool.and_eq_true] at h
    exact tex_loose h.1.1 _ rfl
  | .wrap f row a rest, h => by
    simp only [Chain.proper, Bool.and_eq_true] at h
    exact tex_loose h.1.1.1.1.1 _ rfl
  | .fenced f row a rest, h => by
    simp only [Chain.proper, Bool.and_eq_true] at h
    exact tex_loose h.1.1.1.1.1 _ rfl

theorem loose_head : ∀ {ls : List Lexeme}, looseStart ls = true → looseHead (tks ls) = true
  | [], _ => rfl
  | l :: ls, h => by
    rw [tks_cons]
    exact h

/-! ### Chains -/

/-- The formula of a chain -/
structure ChainGood (x : Chain) (f : Form) : Prop where
  fixed : ∀ l ∈ x.lexemes, l.fixed = true
  tokens : f.tokens = tks x.lexemes
  ok : f.ok false = true
  linked : ∀ cfg g, f.linked (knownMacros cfg g)
  tame : f.tame false = true
  unbroken : f.unbroken = true
  steady : ∀ l p nxt, x.links ≤ l.left → ∃ ns, f.denote l p nxt = .ok (ns, { l with left := l.left - x.links })
  pieces : ∀ labels, ∃ ss, f.pieces labels = ss.map .shape ∧ Shape.trees ss = x.trees ∧ ∀ s ∈ ss, preScripted s = false

theorem shapeTrees_append : ∀ a b : List Shape, Shape.trees (a ++ b) = Shape.trees a ++ Shape.trees b
  | [], _ => rfl
  | x :: a, b => by
    show x.tree :: Shape.trees (a ++ b) = _
    rw [shapeTrees_append a b]
    rfl

/-- The call of a command in front of a formula -/
def linkForm (tok : Token) (r : Form) : Form := .call tok [] (bodyOf tok).length (bodyForm (bodyOf tok) r)

theorem link_tokens (tok : Token) (r : Form) : (linkForm tok r).tokens = ⟨tok, false⟩ :: r.tokens := by
  show (⟨tok, false⟩ :: ([] ++ (bodyForm (bodyOf tok) r).tokens.drop (bodyOf tok).length) : List Tk) = _
  rw [body_tokens, List.nil_append, List.drop_left' (List.length_map _)]

theorem chain_form : ∀ (x : Chain), x.proper = true → ∃ f, ChainGood x f
  | .last t, h => by
    obtain ⟨f, hf⟩ := tex_form false false t h .nil stops_nil fun _ => rfl
    refine ⟨f, hf.fixed, hf.closed.tokens, hf.closed.ok, fun _ _ => hf.closed.linked _, hf.closed.tame false, hf.closed.unbroken,
      fun l p nxt _ => hf.closed.steady l p nxt, fun labels => ?_⟩
    obtain ⟨ss, e1, e2, e3⟩ := hf.pieces labels
    exact ⟨ss, e1.trans (List.append_nil _), e2, e3⟩
  | .link t row rest, h => by
    simp only [Chain.proper, Bool.and_eq_true, decide_eq_true_eq] at h
    obtain ⟨⟨h1, h2⟩, h3⟩ := h
    obtain ⟨r, hr⟩ := chain_form rest h3
    obtain ⟨tok, hb1, hb2, hb3⟩ := compound_known h2
    obtain ⟨hc1, hc2, hc3, hc4⟩ := bodyOf_call hb2
    have hst : stops (linkForm tok r) := by
      refine ⟨?_, ?_⟩ <;> rw [link_tokens] <;> show (!_) = true
      · rw [hc2]; rfl
      · rw [hc3]; rfl
    generalize hbody : bodyOf tok = body at hb2 hb3 hc4
    obtain ⟨f, hf⟩ := tex_form false true t h1 (linkForm tok r) hst nofun
    refine ⟨f, ?_, ?_, hf.ok ?_, fun cfg g => hf.linked _ ?_, hf.tame _ ?_, hf.unbroken (body_unbroken hr.unbroken (bodyOf tok)),
      fun l p nxt hl => hf.steady l _ nxt (fun p => ?_) p, fun labels => ?_⟩
    · refine fixed_append hf.fixed fun l hl => ?_
      rcases List.mem_cons.1 hl with rfl | hl
      · show (fixedTok row.name).isSome = true
        rw [hb1]
        rfl
      · exact hr.fixed l hl
    · rw [hf.tokens, link_tokens]
      show _ = tks (t.lexemes ++ .command row.name :: rest.lexemes)
      rw [tks_append, tks_cons, tok_cmd hb1, hr.tokens]
      rfl
    · unfold linkForm
      rw [hbody]
      show (isCall tok && true && (bodyForm body r).speaks && looseHead ((bodyForm body r).tokens.drop body.length) &&
        (bodyForm body r).ok false) = true
      rw [hc1, body_ok hr.ok hb3, body_tokens, List.drop_left' (List.length_map _), hr.tokens, loose_head (chain_loose h3)]
      cases body with
      | nil => exact absurd rfl hb2
      | cons t ts => rfl
    · unfold linkForm
      rw [hbody]
      refine ⟨⟨_, hc4 _ _, ?_, by decide, ?_, ?_⟩, body_linked (hr.linked cfg g) body⟩
      · intro e
        exact hb2 (List.map_eq_nil_iff.1 e)
      · intro i hi
        exfalso
        obtain ⟨t', ht', e⟩ := List.mem_map.1 hi
        exact absurd e (body_noParam hb3 t' ht' _)
      · rw [body_tokens, List.take_left' (List.length_map _)]
        exact body_loosens _ hb3
    · exact body_tame hr.tame (bodyOf tok)
    · have hl' : rest.links + 1 ≤ l.left := hl
      obtain ⟨n, hn⟩ : ∃ n, l.left = n + 1 := ⟨l.left - 1, by omega⟩
      have he : expandOne l = .ok { l with left := n } := by
        unfold expandOne
        rw [hn]
      obtain ⟨ns, hns⟩ := body_steady (fun p => hr.steady { l with left := n } p nxt (by show rest.links ≤ n; omega)) body p
      refine ⟨ns, ?_⟩
      unfold linkForm Form.denote
      rw [he, hbody]
      show (bodyForm body r).denote _ p nxt = _
      rw [hns]
      show Except.ok (ns, { l with left := n - rest.links }) = Except.ok (ns, { l with left := l.left - (rest.links + 1) })
      rw [show l.left - (rest.links + 1) = n - rest.links by omega]
    · obtain ⟨s1, e1, e2, e3⟩ := hf.pieces labels
      obtain ⟨s2, e4, e5, e6⟩ := body_pieces (r := r) labels hb3
      obtain ⟨s3, e7, e8, e9⟩ := hr.pieces labels
      refine ⟨s1 ++ (s2 ++ s3), ?_, ?_, ?_⟩
      · rw [e1]
        show _ ++ (bodyForm (bodyOf tok) r).pieces labels = _
        rw [hbody, e4, e7, List.map_append, List.map_append]
      · rw [shapeTrees_append, shapeTrees_append, e2, e5, e8]
        rfl
      · intro s hs
        rcases List.mem_append.1 hs with hs | hs
        · exact e3 s hs
        · rcases List.mem_append.1 hs with hs | hs
          · exact e6 s hs
          · exact e9 s hs

  | .wrap t row a rest, h => by
    simp only [Chain.proper, Bool.and_eq_true, decide_eq_true_eq, Bool.not_eq_true', List.isEmpty_eq_false_iff] at h
    obtain ⟨⟨⟨⟨⟨h1, h2⟩, h3⟩, h4⟩, h5⟩, h6⟩ := h
    obtain ⟨r, hr⟩ := chain_form rest h3
    obtain ⟨x, y, hb1, hx, hy, hy'⟩ := wrap_known h2
    have x1 := (plainItem_facts hx).1
    obtain ⟨y1, -, y3, -⟩ := plainItem_facts hy
    have hsy : stops (.item (.atom y) .nil r) := by
      refine ⟨?_, ?_⟩
      · show (!startsScript y) = true
        rw [y3]; rfl
      · show (!continuesNumber y) = true
        rw [hy']; rfl
    obtain ⟨A, hA⟩ := tex_form false true a h4 (.item (.atom y) .nil r) hsy nofun
    let cont : Form := .item (.atom x) .nil A
    let call : Form := .call (.customCmd 1 [x, .customCmdArg 0, y]) [.braces (tks a.lexemes)] ((tks a.lexemes).length + 2) cont
    have hne : tks a.lexemes ≠ [] := fun e => h5 (List.map_eq_nil_iff.1 e)
    have hct : cont.tokens = (⟨x, false⟩ :: (tks a.lexemes ++ [⟨y, false⟩])) ++ r.tokens := by
      show ([⟨x, false⟩] ++ [] ++ A.tokens : List Tk) = _
      rw [hA.tokens]
      show ([⟨x, false⟩] ++ [] ++ (tks a.lexemes ++ ([⟨y, false⟩] ++ [] ++ r.tokens)) : List Tk) = _
      simp
    have hlen : (⟨x, false⟩ :: (tks a.lexemes ++ [⟨y, false⟩]) : List Tk).length = (tks a.lexemes).length + 2 := by simp
    have hct1 : call.tokens = ⟨.customCmd 1 [x, .customCmdArg 0, y], false⟩ :: (⟨.groupBegin, false⟩ :: (tks a.lexemes ++ ⟨.groupEnd, false⟩ :: r.tokens)) := by
      show ((⟨.customCmd 1 [x, .customCmdArg 0, y], false⟩ :: ([CallArg.braces (tks a.lexemes)].flatMap CallArg.tokens)) ++
        cont.tokens.drop ((tks a.lexemes).length + 2) : List Tk) = _
      rw [hct, List.drop_left' hlen]
      have : (tks a.lexemes).isEmpty = false := List.isEmpty_eq_false_iff.2 hne
      simp [CallArg.tokens, this]
    have hst : stops call := by
      refine ⟨?_, ?_⟩ <;> rw [hct1] <;> rfl
    obtain ⟨f, hf⟩ := tex_form false true t h1 call hst nofun
    obtain ⟨e1, e2⟩ := even_arg (tex_even h4 h6)
    have hyok : (Form.item (.atom y) .nil r).ok false = true := by
      show ((isAtom y.unwrapMath && !(false && _)) && true && r.ok false) = true
      rw [y1, hr.ok]
      rfl
    have hcok : cont.ok false = true := by
      show ((isAtom x.unwrapMath && !(false && _)) && true && A.ok false) = true
      rw [x1, hA.ok hyok]
      rfl
    refine ⟨f, ?_, ?_, hf.ok ?_, fun cfg g => hf.linked _ ?_, hf.tame _ ?_, hf.unbroken ?_,
      fun l p nxt hl => hf.steady l _ nxt (fun p => ?_) p, fun labels => ?_⟩
    · refine fixed_append hf.fixed (fixed_cons ?_ (fixed_cons rfl (fixed_append hA.fixed (fixed_cons rfl hr.fixed))))
      show (fixedTok row.name).isSome = true
      rw [hb1]
      rfl
    · rw [hf.tokens, hct1, hr.tokens]
      show _ = tks (t.lexemes ++ .command row.name :: .char '{' :: (a.lexemes ++ .char '}' :: rest.lexemes))
      rw [tks_append, tks_cons, tok_cmd hb1, tks_cons, tks_append, tks_cons]
      rfl
    · show (true && ((CallArg.braces (tks a.lexemes)).ok && true) && true && looseHead (cont.tokens.drop ((tks a.lexemes).length + 2)) &&
        cont.ok false) = true
      rw [hcok, hct, List.drop_left' hlen, hr.tokens, loose_head (chain_loose h3)]
      show (((tks a.lexemes).all _ && braceDepth 0 ((tks a.lexemes).map (·.tok)) == some 0) && true && true && true && true) = true
      rw [e1, e2]
      rfl
    · refine ⟨⟨_, rfl, nofun, by show 1 ≤ 9; decide, ?_, ?_⟩, ⟨trivial, trivial, hA.linked _ ⟨trivial, trivial, hr.linked cfg g⟩⟩⟩
      · exact wrap_params hx hy _
      · rw [hct, List.take_left' hlen]
        exact wrap_loosens hx hy hne _
    · show (true && true && A.tame false) = true
      rw [hA.tame false]
      · rfl
      · show (true && true && r.tame false) = true
        rw [hr.tame]
        rfl
    · show (true && true && A.unbroken) = true
      rw [hA.unbroken]
      · rfl
      · show (true && true && r.unbroken) = true
        rw [hr.unbroken]
        rfl
    · have hl' : rest.links + 1 ≤ l.left := hl
      obtain ⟨n, hn⟩ : ∃ n, l.left = n + 1 := ⟨l.left - 1, by omega⟩
      have he : expandOne l = .ok { l with left := n } := by
        unfold expandOne
        rw [hn]
      have hr' := fun p => hr.steady { l with left := n } p nxt (by show rest.links ≤ n; omega)
      obtain ⟨ns, hns⟩ := body_steady (hA.steady { l with left := n } _ nxt (body_steady hr' [y])) [x] p
      refine ⟨ns, ?_⟩
      show Form.denote (.call _ _ _ cont) l p nxt = _
      unfold Form.denote
      rw [he]
      show cont.denote _ p nxt = _
      refine Eq.trans hns ?_
      show Except.ok (ns, { l with left := n - rest.links }) = Except.ok (ns, { l with left := l.left - (rest.links + 1) })
      rw [show l.left - (rest.links + 1) = n - rest.links by omega]
    · obtain ⟨s1, e1, e2, e3⟩ := hf.pieces labels
      obtain ⟨s2, e4, e5, e6⟩ := body_pieces (r := A) (body := [x]) (xs := [some row.opening]) labels (by
        simp only [plainItems, hx, Bool.and_self])
      obtain ⟨s3, e7, e8, e9⟩ := hA.pieces labels
      obtain ⟨s4, e10, e11, e12⟩ := body_pieces (r := r) (body := [y]) (xs := [some row.closing]) labels (by
        simp only [plainItems, hy, Bool.and_self])
      obtain ⟨s5, e13, e14, e15⟩ := hr.pieces labels
      refine ⟨s1 ++ (s2 ++ (s3 ++ (s4 ++ s5))), ?_, ?_, ?_⟩
      · rw [e1]
        show _ ++ (bodyForm [x] A).pieces labels = _
        rw [e4, e7]
        show _ ++ (_ ++ (_ ++ (bodyForm [y] r).pieces labels)) = _
        rw [e10, e13]
        simp only [List.map_append]
      · rw [shapeTrees_append, shapeTrees_append, shapeTrees_append, shapeTrees_append, e2, e5, e8, e11, e14]
        rfl
      · intro s hs
        simp only [List.mem_append] at hs
        rcases hs with hs | hs | hs | hs | hs
        · exact e3 s hs
        · exact e6 s hs
        · exact e9 s hs
        · exact e12 s hs
        · exact e15 s hs
  | .fenced t row a rest, h => by
    simp only [Chain.proper, Bool.and_eq_true, decide_eq_true_eq, Bool.not_eq_true', List.isEmpty_eq_false_iff] at h
    obtain ⟨⟨⟨⟨⟨h1, h2⟩, h3⟩, h4⟩, h5⟩, h6⟩ := h
    obtain ⟨r, hr⟩ := chain_form rest h3
    obtain ⟨hb1, hb2, hb3⟩ := fence_known h2
    obtain ⟨A, hA⟩ := tex_form false false a h4 .nil stops_nil fun _ => rfl
    have hC := extends_item (head_fence (bracket := false) (follows := fun _ => True) hb2 hb3 hA.closed) scr_none
      (⟨nofun, rfl, form_first hr.ok, id, fun _ => id, fun _ => id, id, fun _ _ _ => id, fun _ => id, ⟨rfl, rfl⟩, fun _ => ⟨[], rfl, rfl, nofun⟩⟩ :
        Extends [] [] false r r) trivial
    let cont : Form := .item (.fence row.left.written.tok row.right.written.tok A) .nil r
    let call : Form := .call (.customCmd 1 (fenceBody row)) [.braces (tks a.lexemes)] ((tks a.lexemes).length + 4) cont
    have hne : tks a.lexemes ≠ [] := fun e => h5 (List.map_eq_nil_iff.1 e)
    have hct : cont.tokens = (⟨.left, false⟩ :: ⟨row.left.written.tok, false⟩ :: (tks a.lexemes ++ [⟨.right, false⟩, ⟨row.right.written.tok, false⟩])) ++ r.tokens := by
      refine hC.tokens.trans ?_
      rw [List.append_nil, List.append_nil, tks_cons, tok_cmd structure_known.2.1, tks_cons, tks_append, tks_cons, tok_cmd structure_known.2.2.1, delim_loose hb2]
      show _ = (⟨.left, false⟩ :: ⟨row.left.written.tok, false⟩ :: (tks a.lexemes ++ [⟨.right, false⟩, ⟨row.right.written.tok, false⟩])) ++ r.tokens
      rw [tks_cons, delim_loose hb3]
      rfl
    have hlen : (⟨.left, false⟩ :: ⟨row.left.written.tok, false⟩ :: (tks a.lexemes ++ [⟨.right, false⟩, ⟨row.right.written.tok, false⟩]) : List Tk).length =
      (tks a.lexemes).length + 4 := by simp
    have hct1 : call.tokens = ⟨.customCmd 1 (fenceBody row), false⟩ :: (⟨.groupBegin, false⟩ :: (tks a.lexemes ++ ⟨.groupEnd, false⟩ :: r.tokens)) := by
      show ((⟨.customCmd 1 (fenceBody row), false⟩ :: ([CallArg.braces (tks a.lexemes)].flatMap CallArg.tokens)) ++
        cont.tokens.drop ((tks a.lexemes).length + 4) : List Tk) = _
      rw [hct, List.drop_left' hlen]
      have : (tks a.lexemes).isEmpty = false := List.isEmpty_eq_false_iff.2 hne
      simp [CallArg.tokens, this]
    have hst : stops call := by
      refine ⟨?_, ?_⟩ <;> rw [hct1] <;> rfl
    obtain ⟨f, hf⟩ := tex_form false true t h1 call hst nofun
    obtain ⟨e1, e2⟩ := even_arg (tex_even h4 h6)
    have hcok : cont.ok false = true := hC.ok hr.ok
    refine ⟨f, ?_, ?_, hf.ok ?_, fun cfg g => hf.linked _ ?_, hf.tame _ ?_, hf.unbroken ?_,
      fun l p nxt hl => hf.steady l _ nxt (fun p => ?_) p, fun labels => ?_⟩
    · refine fixed_append hf.fixed (fixed_cons ?_ (fixed_cons rfl (fixed_append hA.fixed (fixed_cons rfl hr.fixed))))
      show (fixedTok row.name).isSome = true
      rw [hb1]
      rfl
    · rw [hf.tokens, hct1, hr.tokens]
      show _ = tks (t.lexemes ++ .command row.name :: .char '{' :: (a.lexemes ++ .char '}' :: rest.lexemes))
      rw [tks_append, tks_cons, tok_cmd hb1, tks_cons, tks_append, tks_cons]
      rfl
    · show (true && ((CallArg.braces (tks a.lexemes)).ok && true) && true && looseHead (cont.tokens.drop ((tks a.lexemes).length + 4)) &&
        cont.ok false) = true
      rw [hcok, hct, List.drop_left' hlen, hr.tokens, loose_head (chain_loose h3)]
      show (((tks a.lexemes).all _ && braceDepth 0 ((tks a.lexemes).map (·.tok)) == some 0) && true && true && true && true) = true
      rw [e1, e2]
      rfl
    · refine ⟨⟨_, rfl, nofun, by show 1 ≤ 9; decide, fence_params h2 _, ?_⟩, hC.linked _ (hr.linked cfg g)⟩
      rw [hct, List.take_left' hlen]
      exact fence_loosens h2 hne _
    · exact hC.tame _ hr.tame
    · exact hC.unbroken hr.unbroken
    · have hl' : rest.links + 1 ≤ l.left := hl
      obtain ⟨n, hn⟩ : ∃ n, l.left = n + 1 := ⟨l.left - 1, by omega⟩
      have he : expandOne l = .ok { l with left := n } := by
        unfold expandOne
        rw [hn]
      obtain ⟨ns, hns⟩ := hC.steady { l with left := n } _ nxt (fun p => hr.steady { l with left := n } p nxt (by show rest.links ≤ n; omega)) p
      refine ⟨ns, ?_⟩
      show Form.denote (.call _ _ _ cont) l p nxt = _
      unfold Form.denote
      rw [he]
      show cont.denote _ p nxt = _
      refine Eq.trans hns ?_
      show Except.ok (ns, { l with left := n - rest.links }) = Except.ok (ns, { l with left := l.left - (rest.links + 1) })
      rw [show l.left - (rest.links + 1) = n - rest.links by omega]
    · obtain ⟨s1, e1, e2, e3⟩ := hf.pieces labels
      obtain ⟨s2, e4, e5, e6⟩ := hC.pieces labels
      obtain ⟨s3, e7, e8, e9⟩ := hr.pieces labels
      refine ⟨s1 ++ (s2 ++ s3), ?_, ?_, ?_⟩
      · rw [e1]
        show _ ++ cont.pieces labels = _
        refine (congrArg (_ ++ ·) e4).trans ?_
        rw [e7, List.map_append, List.map_append]
      · rw [shapeTrees_append, shapeTrees_append, e2, e5, e8]
        rfl
      · intro s hs
        rcases List.mem_append.1 hs with hs | hs
        · exact e3 s hs
        · rcases List.mem_append.1 hs with hs | hs
          · exact e6 s hs
          · exact e9 s hs

end Verif

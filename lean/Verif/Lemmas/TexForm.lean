import Verif.Lemmas.TexHeads
import Verif.Lemmas.Calm
/-! Formulas of LaTeX as formulas of the grammar. -/
namespace Verif
open Model Spec

/-! ### Characters and commands -/

theorem limits_other {t : Token} {x : Symbol} (h : stands t x = true) (hx : x.type ≠ .op) : limitsRight t x = true := by
  have ha := stands_atom h
  unfold atomOf at ha
  cases t
  case op o => exact absurd (Option.some.inj ha).symm hx
  case mathOrTextMode t' c =>
    cases t'
    case op o => exact absurd (Option.some.inj ha).symm hx
    all_goals rfl
  all_goals rfl

set_option maxRecDepth 100000 in
theorem rows_positive : (symbolRows ++ latexRows).all (fun r => Char.ofNat r.char != '\x00') = true := by decide +kernel

theorem named_known {r : SymbolRow} (h : r ∈ namedSymbols) (ho : r.name ∉ oddSymbols) :
    ∃ t, fixedTok r.name = some t ∧ stands t r.symbol = true ∧ limitsRight t r.symbol = true ∧ (∀ d, t ≠ .digit d) ∧
      r.symbol.char ≠ '\x00' := by
  have hpos : r.symbol.char ≠ '\x00' := bne_iff_ne.1 (List.all_eq_true.1 rows_positive r h)
  have key : ∃ t, fixedTok r.name = some t ∧ stands t r.symbol = true ∧ ∀ d, t ≠ .digit d := by
    rcases List.mem_append.1 h with h | h
    · have hr := rows_stand h
      unfold rowStands at hr
      simp only [Bool.and_eq_true, Bool.or_eq_true, decide_eq_true_eq] at hr
      obtain ⟨-, hr | ⟨h1, h3⟩⟩ := hr
      · exact absurd (List.mem_append_left _ hr) ho
      · cases hc : commands.lookup r.name with
        | none => rw [hc] at h3; cases h3
        | some t =>
          rw [hc] at h3
          dsimp only at h3
          rw [Bool.and_eq_true] at h3
          refine ⟨t, ?_, h3.1, fun d e => by rw [e] at h3; cases h3.2⟩
          unfold fixedTok
          rw [h1.1, h1.2, hc]
          rfl
    · have hr := List.all_eq_true.1 latex_stand r h
      unfold latexStands at hr
      rw [Bool.or_eq_true] at hr
      rcases hr with hr | hr
      · exact absurd (of_decide_eq_true hr) ho
      · cases hc : fixedTok r.name with
        | none => rw [hc] at hr; cases hr
        | some t =>
          rw [hc] at hr
          dsimp only at hr
          rw [Bool.and_eq_true] at hr
          exact ⟨t, rfl, hr.1, fun d e => by rw [e] at hr; cases hr.2⟩
  obtain ⟨t, h1, h2, h3⟩ := key
  refine ⟨t, h1, h2, ?_, h3, hpos⟩
  by_cases hx : r.type = .op
  · have hr : rowLimits r = true := by
      rcases List.mem_append.1 h with h | h
      · exact List.all_eq_true.1 rows_limits r h
      · exact List.all_eq_true.1 latex_limits r h
    unfold rowLimits at hr
    rw [h1] at hr
    simp only [Bool.or_eq_true, decide_eq_true_eq] at hr
    rcases hr with (hr | hr) | hr
    · exact absurd hx hr
    · exact absurd hr ho
    · exact hr
  · exact limits_other h2 hx

theorem typed_limits {c : Char} (h : isSymbol c = true) : limitsRight (Lexer.charToken c) (typedSymbol c) = true := by
  by_cases hk : c.toNat < 128
  · have := List.all_eq_true.1 ascii_limits _ (List.mem_range.2 hk)
    rw [Char.ofNat_toNat, h] at this
    exact this
  · rw [charToken_other hk]
    unfold getOperatorFromUnicode
    cases ho : unicodeOperators.lookup c with
    | some tok =>
      have : (c, tok) ∈ unicodeOperators := by
        revert ho
        generalize unicodeOperators = l
        intro ho
        induction l with
        | nil => cases ho
        | cons q l ih =>
          rw [List.lookup_cons] at ho
          split at ho
          · rename_i he
            cases ho
            have : c = q.1 := by simpa using he
            rw [this]
            exact List.mem_cons_self
          · exact List.mem_cons_of_mem _ (ih ho)
      have := List.all_eq_true.1 table_limits _ this
      dsimp only at this
      rw [h] at this
      exact this
    | none => rfl

theorem shownFor_eq {c d : Char} (h : shownFor c = d) : c = d ∨ d = '∗' ∨ d = '−' ∨ d = '”' ∨ d = '‘' := by
  unfold shownFor at h
  repeat' split at h
  all_goals simp [← h]

theorem symbol_shown {c : Char} (h : isSymbol c = true) : (typedSymbol c).char ≠ '\x00' := by
  intro e
  rcases shownFor_eq (show shownFor c = '\x00' from e) with rfl | h' | h' | h' | h'
  · exact absurd h (by decide)
  all_goals exact absurd h' (by decide)

theorem char_ofNat {n : Nat} {c : Char} (h : Char.ofNat n = c) (hc : c ≠ '\x00') : n = c.toNat := by
  by_cases hv : n.isValidChar
  · rw [← h]
    unfold Char.ofNat
    rw [dif_pos hv]
    rfl
  · exfalso
    apply hc
    rw [← h]
    unfold Char.ofNat
    rw [dif_neg hv]
    rfl

/-! ### Numbers -/

theorem ascii_continues : ((List.range 128).all fun n => !continuesNumber (Lexer.charToken (Char.ofNat n)) ||
    (isAsciiDigit (Char.ofNat n) || Char.ofNat n == '.')) = true := by decide +kernel

set_option maxRecDepth 100000 in
theorem commands_continue : (commands.all fun p => !continuesNumber p.2) = true := by decide +kernel

theorem lookup_some_mem {α : Type} {k : Str} {v : α} {l : List (Str × α)} (h : l.lookup k = some v) : ∃ p ∈ l, p.2 = v := by
  induction l with
  | nil => cases h
  | cons q l ih =>
    rw [List.lookup_cons] at h
    split at h
    · exact ⟨q, List.mem_cons_self, Option.some.inj h⟩
    · obtain ⟨p, hp, e⟩ := ih h
      exact ⟨p, List.mem_cons_of_mem _ hp, e⟩

theorem char_continues {c : Char} (h : (isAsciiDigit c || c == '.') = false) : continuesNumber (Lexer.charToken c) = false := by
  cases hn : continuesNumber (Lexer.charToken c) with
  | false => rfl
  | true =>
    exfalso
    by_cases hk : c.toNat < 128
    · have := List.all_eq_true.1 ascii_continues _ (List.mem_range.2 hk)
      rw [Char.ofNat_toNat, hn, h] at this
      cases this
    · rw [charToken_other hk] at hn
      unfold getOperatorFromUnicode at hn
      cases ho : unicodeOperators.lookup c with
      | some tok => rw [ho] at hn; cases hn
      | none =>
        rw [ho] at hn
        have hn : SuperChar.fromChar c = SuperChar.fromChar '.' := of_decide_eq_true hn
        have hn := congrArg SuperChar.text hn
        rw [fromChar_eq, fromChar_eq, symWord_text, symWord_text] at hn
        have : c = '.' := by simpa using hn
        exact hk (by rw [this]; decide)

theorem lexeme_continues {l : Lexeme} (h : l.continuesDigits = false) : continuesNumber l.tok = false := by
  cases l with
  | opens => rfl
  | closes => rfl
  | command name =>
    show continuesNumber ((fixedTok name).getD .relax) = false
    unfold fixedTok
    split
    · cases hc : commands.lookup name with
      | none =>
        show continuesNumber (Option.getD (if _ then _ else _) _) = false
        split <;> rfl
      | some t =>
        obtain ⟨p, hp, rfl⟩ := lookup_some_mem hc
        have := List.all_eq_true.1 commands_continue p hp
        simpa using this
    · rfl
  | char c => exact char_continues h
  | next c => exact char_continues h
  | blank => rfl

theorem headNot_tks {p : Token → Bool} {ls : List Lexeme} {ts : List Tk} (h : ∀ l ∈ ls.head?, p l.tok = false)
    (ht : headNot p ts = true) : headNot p (tks ls ++ ts) = true := by
  cases ls with
  | nil => exact ht
  | cons l ls =>
    show (!p l.tok) = true
    rw [h l rfl]
    rfl

/-- The formula ends here, or this is the end of a cell. -/
def stops (k : Form) : Prop := headNot startsScript k.tokens = true ∧ headNot continuesNumber k.tokens = true

/-- The tokens after a part of a formula -/
def Follows (s : Scr) (after : List Lexeme) (ts : List Tk) : Prop :=
  (after.head?.any Lexeme.continuesDigits = false → headNot continuesNumber ts = true) ∧
  (s.isNone = true → headNot startsScript ts = true)

theorem headNot_mono {p q : Token → Bool} (h : ∀ t, q t = true → p t = true) {ts : List Tk} (ht : headNot p ts = true) :
    headNot q ts = true := by
  cases ts with
  | nil => rfl
  | cons t ts =>
    show (!q t.tok) = true
    replace ht : (!p t.tok) = true := ht
    cases hq : q t.tok with
    | false => rfl
    | true => rw [h _ hq] at ht; cases ht

theorem primes_script (t : Token) (h : continuesPrimes t = true) : startsScript t = true := by
  unfold continuesPrimes at h
  unfold startsScript
  split at h
  · rename_i e; rw [e]; rfl
  · rename_i e; rw [e]; rfl
  · cases h

theorem label_script (isOver : Bool) (t : Token) (h : startsLabel isOver t = true) : startsScript t = true := by
  cases t <;> first | rfl | cases h

/-! ### Scripts -/

/-- Scripts which are right -/
structure ScrGood (ls : List Lexeme) (trees : Option Tree × Option Tree) (s : Scripts) : Prop where
  fixed : ∀ l ∈ ls, l.fixed = true
  tokens : s.tokens = tks ls
  ok : ∀ after, headNot startsScript after = true → s.ok after = true
  linked : ∀ M, s.linked M
  tame : s.tame = true
  unbroken : s.unbroken = true
  steady : ∀ l, ∃ b, s.denote l {} = .ok (b, l)
  shapes : ∀ labels, ((s.shapes labels).1.map Shape.tree, (s.shapes labels).2.map Shape.tree) = trees

theorem fixed_cons {l : Lexeme} {ls : List Lexeme} (h : l.fixed = true) (hs : ∀ l ∈ ls, l.fixed = true) :
    ∀ l' ∈ l :: ls, l'.fixed = true := by
  intro l' hm
  rcases List.mem_cons.1 hm with rfl | hm
  · exact h
  · exact hs _ hm

theorem fixed_append {a b : List Lexeme} (ha : ∀ l ∈ a, l.fixed = true) (hb : ∀ l ∈ b, l.fixed = true) :
    ∀ l ∈ a ++ b, l.fixed = true := by
  intro l hm
  rcases List.mem_append.1 hm with hm | hm
  · exact ha _ hm
  · exact hb _ hm

theorem fixed_one {l : Lexeme} (h : l.fixed = true) : ∀ l' ∈ [l], l'.fixed = true := fixed_cons h nofun

theorem fixed_braces {a : List Lexeme} (ha : ∀ l ∈ a, l.fixed = true) : ∀ l ∈ braced a, l.fixed = true := by
  have h1 : (Lexeme.char '{').fixed = true := rfl
  have h2 : (Lexeme.char '}').fixed = true := rfl
  exact fixed_cons h1 (fixed_append ha (fixed_one h2))

theorem tks_braces (a : List Lexeme) : tks (braced a) = ⟨.groupBegin, false⟩ :: tks a ++ [⟨.groupEnd, false⟩] := by
  show _ :: tks (a ++ _) = _
  rw [tks_append]
  rfl

theorem scr_none : ScrGood [] (none, none) .nil :=
  ⟨nofun, rfl, fun _ _ => rfl, fun _ => trivial, rfl, rfl, fun _ => ⟨_, rfl⟩, fun _ => rfl⟩

theorem scr_sub {ls : List Lexeme} {t : Tree} {a : Arg} (h : ArgGood ls t a) :
    ScrGood (.char '_' :: ls) (some t, none) (.sub a .nil) := by
  refine ⟨fixed_cons rfl h.fixed, ?_, fun after _ => ?_, fun M => ⟨h.linked M, trivial⟩, ?_, ?_, fun l => ?_, fun labels => ?_⟩
  · show _ :: a.tokens ++ [] = _
    rw [List.append_nil, h.tokens]
    rfl
  · show (a.ok && true) = true
    rw [h.ok]
    rfl
  · show (a.tame && true) = true
    rw [h.tame]
    rfl
  · show (a.unbroken && true) = true
    rw [h.unbroken]
    rfl
  · obtain ⟨n, hn⟩ := h.steady true { l with style := scriptStyle l.style }
    refine ⟨{ sub := some n }, ?_⟩
    unfold Scripts.denote
    rw [hn]
    rfl
  · exact congrArg (fun t => (some t, none)) (h.shape labels)

theorem scr_sup {ls : List Lexeme} {t : Tree} {a : Arg} (h : ArgGood ls t a) :
    ScrGood (.char '^' :: ls) (none, some t) (.sup a .nil) := by
  refine ⟨fixed_cons rfl h.fixed, ?_, fun after _ => ?_, fun M => ⟨h.linked M, trivial⟩, ?_, ?_, fun l => ?_, fun labels => ?_⟩
  · show _ :: a.tokens ++ [] = _
    rw [List.append_nil, h.tokens]
    rfl
  · show (a.ok && true) = true
    rw [h.ok]
    rfl
  · show (a.tame && true) = true
    rw [h.tame]
    rfl
  · show (a.unbroken && true) = true
    rw [h.unbroken]
    rfl
  · obtain ⟨n, hn⟩ := h.steady true { l with style := scriptStyle l.style }
    refine ⟨{ sup := some n }, ?_⟩
    unfold Scripts.denote
    rw [hn]
    rfl
  · exact congrArg (fun t => (none, some t)) (h.shape labels)

theorem scr_subSup {ls ls' : List Lexeme} {t t' : Tree} {a b : Arg} (h : ArgGood ls t a) (h' : ArgGood ls' t' b) :
    ScrGood (.char '_' :: (ls ++ .char '^' :: ls')) (some t, some t') (.sub a (.sup b .nil)) := by
  refine ⟨fixed_cons rfl (fixed_append h.fixed (fixed_cons rfl h'.fixed)), ?_, fun after _ => ?_,
    fun M => ⟨h.linked M, h'.linked M, trivial⟩, ?_, ?_, fun l => ?_, fun labels => ?_⟩
  · show _ :: a.tokens ++ (_ :: b.tokens ++ []) = _
    rw [List.append_nil, h.tokens, h'.tokens, tks_cons, tks_append]
    rfl
  · show (a.ok && (b.ok && true)) = true
    rw [h.ok, h'.ok]
    rfl
  · show (a.tame && (b.tame && true)) = true
    rw [h.tame, h'.tame]
    rfl
  · show (a.unbroken && (b.unbroken && true)) = true
    rw [h.unbroken, h'.unbroken]
    rfl
  · obtain ⟨n, hn⟩ := h.steady true { l with style := scriptStyle l.style }
    obtain ⟨n', hn'⟩ := h'.steady true { l with style := scriptStyle l.style }
    refine ⟨{ sub := some n, sup := some n' }, ?_⟩
    unfold Scripts.denote
    rw [hn]
    show Scripts.denote (.sup b .nil) l _ = _
    unfold Scripts.denote
    rw [hn']
    rfl
  · show (some (a.shape labels).tree, some (b.shape labels).tree) = _
    rw [h.shape, h'.shape]

theorem scr_supSub {ls ls' : List Lexeme} {t t' : Tree} {a b : Arg} (h : ArgGood ls t a) (h' : ArgGood ls' t' b) :
    ScrGood (.char '^' :: (ls' ++ .char '_' :: ls)) (some t, some t') (.sup b (.sub a .nil)) := by
  refine ⟨fixed_cons rfl (fixed_append h'.fixed (fixed_cons rfl h.fixed)), ?_, fun after _ => ?_,
    fun M => ⟨h'.linked M, h.linked M, trivial⟩, ?_, ?_, fun l => ?_, fun labels => ?_⟩
  · show _ :: b.tokens ++ (_ :: a.tokens ++ []) = _
    rw [List.append_nil, h.tokens, h'.tokens, tks_cons, tks_append]
    rfl
  · show (b.ok && (a.ok && true)) = true
    rw [h.ok, h'.ok]
    rfl
  · show (b.tame && (a.tame && true)) = true
    rw [h.tame, h'.tame]
    rfl
  · show (b.unbroken && (a.unbroken && true)) = true
    rw [h.unbroken, h'.unbroken]
    rfl
  · obtain ⟨n, hn⟩ := h.steady true { l with style := scriptStyle l.style }
    obtain ⟨n', hn'⟩ := h'.steady true { l with style := scriptStyle l.style }
    refine ⟨{ sub := some n, sup := some n' }, ?_⟩
    unfold Scripts.denote
    rw [hn']
    show Scripts.denote (.sub a .nil) l _ = _
    unfold Scripts.denote
    rw [hn]
    rfl
  · show (some (a.shape labels).tree, some (b.shape labels).tree) = _
    rw [h.shape, h'.shape]

/-! ### Sequences -/

theorem calm_tks {ls : List Lexeme} (h : ∀ l ∈ ls, calmTok l.tok = true) : NumberFree (tks ls) := by
  unfold NumberFree tks
  rw [List.all_map, List.all_eq_true]
  exact h

/-- A formula which is right, in front of another one -/
structure Extends (ls : List Lexeme) (ts : List Tree) (bracket : Bool) (k f : Form) : Prop where
  fixed : ∀ l ∈ ls, l.fixed = true
  tokens : f.tokens = tks ls ++ k.tokens
  first : headNot startsScript f.tokens = true
  ok : k.ok bracket = true → f.ok bracket = true
  linked : ∀ M, k.linked M → f.linked M
  tame : ∀ sep, k.tame sep = true → f.tame sep = true
  unbroken : k.unbroken = true → f.unbroken = true
  steady : ∀ l l' nxt, (∀ p, ∃ ns, k.denote l p nxt = .ok (ns, l')) → ∀ p, ∃ ns, f.denote l p nxt = .ok (ns, l')
  simple : (∀ l ∈ ls, calmTok l.tok = true) → (∀ m, k.simpleRows m = true) → ∀ m, f.simpleRows m = true
  split : f.split.events = k.split.events ∧ f.split.rows = k.split.rows
  pieces : ∀ labels, ∃ ss, f.pieces labels = ss.map .shape ++ k.pieces labels ∧ Shape.trees ss = ts ∧
    ∀ s ∈ ss, preScripted s = false

theorem extends_nil {k : Form} (hk : stops k) (bracket : Bool) : Extends [] [] bracket k k :=
  ⟨nofun, rfl, hk.1, id, fun _ => id, fun _ => id, id, fun _ _ _ => id, fun _ => id, ⟨rfl, rfl⟩, fun _ => ⟨[], rfl, rfl, nofun⟩⟩

theorem withScripts_tree {s : Shape} (h : preScripted s = false) (p : ScriptShapes) :
    (s.withScripts p).tree = s.tree.withScripts (p.1.map Shape.tree, p.2.map Shape.tree) ∧ preScripted (s.withScripts p) = false := by
  obtain ⟨a, b⟩ := p
  cases s <;> first
    | cases h; done
    | (cases a <;> cases b <;> exact ⟨rfl, rfl⟩)

theorem withLimits_tree {s : Shape} (h : preScripted s = false) (p : ScriptShapes) :
    (s.withLimits p).tree = s.tree.withLimits (p.1.map Shape.tree, p.2.map Shape.tree) ∧ preScripted (s.withLimits p) = false := by
  obtain ⟨a, b⟩ := p
  cases a <;> cases b
  · exact ⟨rfl, h⟩
  all_goals exact ⟨rfl, rfl⟩

theorem head_pieces (h : Head) (s : Scripts) (r : Form) (labels : Str → Option Str) :
    (h.form s r).pieces labels = .shape (if h.limits then (h.shape labels).withLimits (s.shapes labels)
      else (h.shape labels).withScripts (s.shapes labels)) :: r.pieces labels := by
  cases h <;> rfl

theorem head_steady {h : Head} {s : Scripts} {r : Form} {l l' : Loc} {nxt : Class} (hh : h.steady)
    (hs : ∃ b, s.denote l {} = .ok (b, l)) (hr : ∀ p, ∃ ns, r.denote l p nxt = .ok (ns, l')) (p : Class) :
    ∃ ns, (h.form s r).denote l p nxt = .ok (ns, l') := by
  obtain ⟨b, hb⟩ := hs
  cases h with
  | base x =>
    obtain ⟨rx, hx⟩ := hh l p (lead (s.tokens ++ r.tokens) nxt)
    obtain ⟨ns, hn⟩ := hr rx.1
    refine ⟨withScripts rx.2 b :: ns, ?_⟩
    show Form.denote (.item x s r) l p nxt = _
    unfold Form.denote
    rw [hx]
    show (s.denote l {} >>= _) = _
    rw [hb]
    show (r.denote l rx.1 nxt >>= _) = _
    rw [hn]
    rfl
  | big o =>
    obtain ⟨ns, hn⟩ := hr .operator
    show ∃ ns, Form.denote (.bigOp o s r) l p nxt = _
    unfold Form.denote
    split
    · rw [hb]
      show ∃ ns', (r.denote l .operator nxt >>= fun rr => Except.ok (_ :: rr.1, rr.2)) = Except.ok (ns', l')
      rw [hn]
      exact ⟨_, rfl⟩
    · rw [hb]
      show ∃ ns', (r.denote l .operator nxt >>= fun rr => Except.ok (_ :: rr.1, rr.2)) = Except.ok (ns', l')
      rw [hn]
      exact ⟨_, rfl⟩
  | func x w =>
    obtain ⟨ns, hn⟩ := hr .operator
    show ∃ ns, Form.denote (.func x w s r) l p nxt = _
    unfold Form.denote
    rw [hb]
    show ∃ ns', (r.denote l .operator nxt >>= fun rr => Except.ok (_ :: rr.1, rr.2)) = Except.ok (ns', l')
    rw [hn]
    exact ⟨_, rfl⟩

/-- Something with scripts, and the rest of a formula -/
theorem extends_item {ln ls lr : List Lexeme} {tree : Tree} {limits bracket : Bool} {follows : List Tk → Prop}
    {trees : Option Tree × Option Tree} {ts : List Tree} {h : Head} {s : Scripts} {k r : Form}
    (hh : HeadGood ln tree limits bracket follows h) (hs : ScrGood ls trees s) (hr : Extends lr ts bracket k r)
    (hf : follows (s.tokens ++ r.tokens)) :
    Extends (ln ++ (ls ++ lr)) ((if limits then tree.withLimits trees else tree.withScripts trees) :: ts) bracket k
      (h.form s r) := by
  have ht : (h.form s r).tokens = h.tokens ++ (s.tokens ++ r.tokens) := by
    cases h with
    | base b => exact List.append_assoc _ _ _
    | big o => exact List.append_assoc (⟨o.token, false⟩ :: limitsTokens o.lim) _ _
    | func x w => exact List.append_assoc _ _ _
  refine ⟨fixed_append hh.fixed (fixed_append hs.fixed hr.fixed), ?_, ?_, fun hk => ?_, fun M hk => ?_, fun sep hk => ?_,
    fun hk => ?_, fun l l' nxt hk p => head_steady hh.steady (hs.steady l) (hr.steady l l' nxt hk) p, fun hc hk m => ?_, ?_,
    fun labels => ?_⟩
  · rw [ht, hh.tokens, hs.tokens, hr.tokens, tks_append, tks_append, List.append_assoc, List.append_assoc]
  · obtain ⟨t, tt, e1, e2⟩ := hh.first
    rw [ht, hh.tokens, e1]
    show (!startsScript t) = true
    rw [e2]
    rfl
  · have h1 := hh.ok _ hf
    have h2 := hs.ok r.tokens hr.first
    have h3 := hr.ok hk
    cases h with
    | base b =>
      show (b.ok bracket (s.tokens ++ r.tokens) && s.ok r.tokens && r.ok bracket) = true
      rw [show b.ok bracket (s.tokens ++ r.tokens) = true from h1, h2, h3]
      rfl
    | big o =>
      show (o.ok && s.ok r.tokens && r.ok bracket) = true
      rw [show o.ok = true from h1, h2, h3]
      rfl
    | func x w =>
      show (x.ok && s.ok r.tokens && r.ok bracket) = true
      rw [show x.ok = true from h1, h2, h3]
      rfl
  · have h1 := hh.linked M
    cases h with
    | base b => exact ⟨h1, hs.linked M, hr.linked M hk⟩
    | big o => exact ⟨hs.linked M, hr.linked M hk⟩
    | func x w => exact ⟨hs.linked M, hr.linked M hk⟩
  · have h1 := hh.tame
    have h3 := hr.tame sep hk
    cases h with
    | base b =>
      show (b.tame && s.tame && r.tame sep) = true
      rw [show b.tame = true from h1, hs.tame, h3]
      rfl
    | big o =>
      show (s.tame && r.tame sep) = true
      rw [hs.tame, h3]
      rfl
    | func x w =>
      show (plainName x.name.shown && s.tame && r.tame sep) = true
      rw [show plainName x.name.shown = true from h1, hs.tame, h3]
      rfl
  · have h1 := hh.unbroken
    have h3 := hr.unbroken hk
    cases h with
    | base b =>
      show (b.unbroken && s.unbroken && r.unbroken) = true
      rw [show b.unbroken = true from h1, hs.unbroken, h3]
      rfl
    | big o =>
      show (s.unbroken && r.unbroken) = true
      rw [hs.unbroken, h3]
      rfl
    | func x w =>
      show (s.unbroken && r.unbroken) = true
      rw [hs.unbroken, h3]
      rfl
  · have h1 : ∀ l ∈ ln, calmTok l.tok = true := fun l hl => hc l (List.mem_append_left _ hl)
    have h2 := scripts_quiet s hs.tame (hs.linked _) (by
      rw [hs.tokens]
      exact calm_tks fun l hl => hc l (List.mem_append_right _ (List.mem_append_left _ hl)))
    have h3 := hr.simple (fun l hl => hc l (List.mem_append_right _ (List.mem_append_right _ hl))) hk true
    cases h with
    | base b =>
      have h4 := base_quiet b hh.tame (hh.linked _) (by
        rw [show b.tokens = _ from hh.tokens]
        exact calm_tks h1)
      show (b.quiet && s.quiet && r.simpleRows true) = true
      rw [h4, h2, h3]
      rfl
    | big o =>
      show (s.quiet && r.simpleRows true) = true
      rw [h2, h3]
      rfl
    | func x w =>
      show (s.quiet && r.simpleRows true) = true
      rw [h2, h3]
      rfl
  · cases h <;> exact hr.split
  · obtain ⟨ss, e1, e2, e3⟩ := hr.pieces labels
    obtain ⟨s1, s2⟩ := hh.shape labels
    have key : ∃ x : Shape, (if h.limits then (h.shape labels).withLimits (s.shapes labels)
        else (h.shape labels).withScripts (s.shapes labels)) = x ∧
        x.tree = (if limits then tree.withLimits trees else tree.withScripts trees) ∧ preScripted x = false := by
      refine ⟨_, rfl, ?_⟩
      rw [hh.limits, ← hs.shapes labels, ← s1]
      cases limits with
      | true => exact withLimits_tree s2 _
      | false => exact withScripts_tree s2 _
    obtain ⟨x, k1, k2, k3⟩ := key
    refine ⟨x :: ss, ?_, ?_, ?_⟩
    · rw [head_pieces, k1, e1]
      rfl
    · show x.tree :: Shape.trees ss = _
      rw [k2, e2]
    · intro y hy
      rcases List.mem_cons.1 hy with rfl | hy
      · exact k3
      · exact e3 y hy

/-! ### Formulas on their own -/

theorem shapes_pieces (ss : List Shape) (ps : List ShapePiece) : shapesOf (ss.map .shape ++ ps) = ss ++ shapesOf ps := by
  induction ss with
  | nil => rfl
  | cons s ss ih => exact congrArg (s :: ·) ih

theorem one_tree (ss : List Shape) (h : ∀ s ∈ ss, preScripted s = false) :
    (Shape.one ss).tree = Tree.one (Shape.trees ss) ∧ preScripted (Shape.one ss) = false := by
  match ss with
  | [] => exact ⟨rfl, rfl⟩
  | [s] => exact ⟨rfl, h s List.mem_cons_self⟩
  | s :: s' :: ss => exact ⟨rfl, rfl⟩

/-- What is known about a formula on its own -/
structure TexClosed (ls : List Lexeme) (ts : List Tree) (bracket : Bool) (f : Form) : Prop where
  fixed : ∀ l ∈ ls, l.fixed = true
  tokens : f.tokens = tks ls
  ok : f.ok bracket = true
  linked : ∀ M, f.linked M
  tame : ∀ sep, f.tame sep = true
  unbroken : f.unbroken = true
  steady : ∀ l p nxt, ∃ ns, f.denote l p nxt = .ok (ns, l)
  shapes : ∀ labels, Shape.trees (shapesOf (f.pieces labels)) = ts ∧ ∀ s ∈ shapesOf (f.pieces labels), preScripted s = false

theorem Extends.closed {ls : List Lexeme} {ts : List Tree} {bracket : Bool} {f : Form} (h : Extends ls ts bracket .nil f) :
    TexClosed ls ts bracket f := by
  refine ⟨h.fixed, ?_, h.ok rfl, fun M => h.linked M trivial, fun sep => h.tame sep rfl, h.unbroken rfl,
    fun l p nxt => h.steady l l nxt (fun _ => ⟨_, rfl⟩) p, fun labels => ?_⟩
  · rw [h.tokens]
    exact List.append_nil _
  · obtain ⟨ss, e1, e2, e3⟩ := h.pieces labels
    rw [e1, shapes_pieces]
    show Shape.trees (ss ++ []) = _ ∧ ∀ s ∈ ss ++ [], _
    rw [List.append_nil]
    exact ⟨e2, e3⟩

theorem stops_nil : stops .nil := ⟨rfl, rfl⟩

/-- A formula in braces as an argument -/
theorem arg_braces {ls : List Lexeme} {ts : List Tree} {f : Form} (h : TexClosed ls ts false f) :
    ArgGood (braced ls) (.one ts) (.braces f) := by
  refine ⟨fixed_braces h.fixed, ?_, h.ok, h.linked, h.tame false, h.unbroken, fun reset l => ?_, fun g e => ?_, fun labels => ?_⟩
  · show _ :: f.tokens ++ _ = _
    rw [h.tokens, tks_braces]
  · obtain ⟨ns, hn⟩ := h.steady l .opening .ending
    refine ⟨nodeVecToNode ns reset, ?_⟩
    unfold Arg.denote
    rw [hn]
    rfl
  · cases e
    exact h.steady
  · obtain ⟨e1, e2⟩ := h.shapes labels
    show (Shape.one (shapesOf (f.pieces labels))).tree = _
    rw [(one_tree _ e2).1, e1]

end Verif

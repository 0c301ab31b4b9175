import Verif.Lemmas.TexNuc
/-! Further parts of formulas of LaTeX: primes, delimiters of a given size, arrows with labels, phantoms and strokes. -/
namespace Verif
open Model Spec

variable {bracket : Bool} {follows : List Tk → Prop}

/-! ### Tables -/

set_option maxRecDepth 100000 in
theorem sizes_known : sizeNames.all (fun n => match fixedTok n with
    | some (.big _ _) => true | _ => false) = true := by decide +kernel

set_option maxRecDepth 100000 in
theorem sized_known : delimRows.all (fun d => decide (d.written = .char '.') ||
    (d.written.tok.unwrapMath.delimiter.isSome &&
    match delimShape d.written.tok.unwrapMath.delimiter with
    | .op c => showsNat c d.shown
    | _ => false)) = true := by decide +kernel

set_option maxRecDepth 100000 in
theorem arrows_known : arrowRows.all (fun r => match fixedTok r.name with
    | some (.xarrow rel) => showsNat rel.asOp.sc r.char | _ => false) = true := by decide +kernel

set_option maxRecDepth 100000 in
theorem strokes_known : strokeRows.all (fun r => match fixedTok r.1 with
    | some (.enclose n) => (notationMarks n).length == r.2 | _ => false) = true := by decide +kernel

/-- What the command for a phantom stands for -/
def phantomRight (name : Str) : Bool :=
  match fixedTok name with
  | some (.phantom .full) => decide (name = c!"phantom")
  | some (.phantom _) => decide (name ≠ c!"phantom")
  | _ => false

theorem phantoms_known : [c!"phantom", c!"hphantom", c!"vphantom"].all phantomRight = true := by decide +kernel

/-! ### Primes -/

/-- The token of a prime -/
def primeTok : Token := Lexer.charToken '\''

theorem primes_fixed (n : Nat) : ∀ l ∈ primeMarks n, l.fixed = true := by
  intro l hl
  rcases List.mem_cons.1 hl with h | h
  · rw [h]
    rfl
  · rw [(List.mem_replicate.1 h).2]
    rfl

theorem primes_tks (n : Nat) : tks (primeMarks n) = (⟨primeTok, false⟩ : Tk) :: tight (List.replicate n primeTok) := by
  show _ :: List.map _ (List.replicate n _) = _ :: List.map _ (List.replicate n _)
  rw [List.map_replicate, List.map_replicate]
  rfl

theorem primes_ok (n : Nat) : (primeTok :: List.replicate n primeTok).all (fun t => (primeOf t).isSome) = true := by
  rw [List.all_eq_true]
  intro t ht
  have : t = primeTok := by
    rcases List.mem_cons.1 ht with h | h
    · exact h
    · exact (List.mem_replicate.1 h).2
  rw [this]
  rfl

theorem primes_shapes {n : Nat} (h : n < 4) :
    ∃ s, primesShapes (primeTok :: List.replicate n primeTok) = [s] ∧ s.tree = .primes n := by
  match n, h with
  | 0, _ => exact ⟨_, rfl, rfl⟩
  | 1, _ => exact ⟨_, rfl, rfl⟩
  | 2, _ => exact ⟨_, rfl, rfl⟩
  | 3, _ => exact ⟨_, rfl, rfl⟩
  | n + 4, h => omega

theorem scr_primes {n : Nat} (hn : n < 4) :
    ScrGood (primeMarks n) (none, some (.primes n)) (.primes primeTok (List.replicate n primeTok) .nil) := by
  obtain ⟨s, h1, h2⟩ := primes_shapes hn
  refine ⟨primes_fixed n, ?_, fun after h => ?_, fun _ => trivial, rfl, rfl, fun l => ⟨_, rfl⟩, fun labels => ?_⟩
  · rw [primes_tks]
    exact List.append_nil _
  · show (_ && headNot continuesPrimes after && true) = true
    rw [headNot_mono primes_script h, primes_ok]
    rfl
  · show (none, some (Shape.one (primesShapes _)).tree) = _
    rw [h1, ← h2]
    rfl

theorem scr_primesSub {n : Nat} (hn : n < 4) {ls : List Lexeme} {t : Tree} {a : Arg} (h : ArgGood ls t a) :
    ScrGood (primeMarks n ++ .char '_' :: ls) (some t, some (.primes n))
      (.primes primeTok (List.replicate n primeTok) (.sub a .nil)) := by
  obtain ⟨s, h1, h2⟩ := primes_shapes hn
  refine ⟨fixed_append (primes_fixed n) (fixed_cons rfl h.fixed), ?_, fun after _ => ?_, fun M => ⟨h.linked M, trivial⟩, ?_, ?_,
    fun l => ?_, fun labels => ?_⟩
  · rw [tks_append, primes_tks, tks_cons]
    show _ :: _ ++ (_ :: a.tokens ++ []) = _
    rw [List.append_nil, h.tokens]
    rfl
  · show (_ && headNot continuesPrimes (_ :: _) && (a.ok && true)) = true
    rw [primes_ok, h.ok]
    rfl
  · show (a.tame && true) = true
    rw [h.tame]
    rfl
  · show (a.unbroken && true) = true
    rw [h.unbroken]
    rfl
  · obtain ⟨m, hm⟩ := h.steady true { l with style := scriptStyle l.style }
    refine ⟨{ sub := some m, sup := some (Rec.rowUnlessSingle (primesNodes (primeTok :: List.replicate n primeTok))) }, ?_⟩
    show Scripts.denote (.sub a .nil) l { sup := some _ } = _
    unfold Scripts.denote
    rw [hm]
    rfl
  · show (some (a.shape labels).tree, some (Shape.one (primesShapes _)).tree) = _
    rw [h1, h.shape, ← h2]
    rfl

theorem scr_subPrimes {n : Nat} (hn : n < 4) {ls : List Lexeme} {t : Tree} {a : Arg} (h : ArgGood ls t a) :
    ScrGood (.char '_' :: (ls ++ primeMarks n)) (some t, some (.primes n))
      (.sub a (.primes primeTok (List.replicate n primeTok) .nil)) := by
  obtain ⟨s, h1, h2⟩ := primes_shapes hn
  refine ⟨fixed_cons rfl (fixed_append h.fixed (primes_fixed n)), ?_, fun after ha => ?_, fun M => ⟨h.linked M, trivial⟩, ?_, ?_,
    fun l => ?_, fun labels => ?_⟩
  · rw [tks_cons, tks_append, primes_tks, ← h.tokens]
    show _ :: a.tokens ++ (_ :: _ ++ []) = _
    rw [List.append_nil]
    rfl
  · show (a.ok && (_ && headNot continuesPrimes after && true)) = true
    rw [primes_ok, h.ok, headNot_mono primes_script ha]
    rfl
  · show (a.tame && true) = true
    rw [h.tame]
    rfl
  · show (a.unbroken && true) = true
    rw [h.unbroken]
    rfl
  · obtain ⟨m, hm⟩ := h.steady true { l with style := scriptStyle l.style }
    refine ⟨{ sub := some m, sup := some (Rec.rowUnlessSingle (primesNodes (primeTok :: List.replicate n primeTok))) }, ?_⟩
    unfold Scripts.denote
    rw [hm]
    rfl
  · show (some (a.shape labels).tree, some (Shape.one (primesShapes _)).tree) = _
    rw [h1, h.shape, ← h2]
    rfl

theorem scr_primesSup {n : Nat} (hn : n < 4) {ls : List Lexeme} {t : Tree} {b : Arg} (h : ArgGood ls t b) :
    ScrGood (primeMarks n ++ .next '^' :: ls) (none, some (.node c!"mrow" [.primes n, t]))
      (.primesSup primeTok (List.replicate n primeTok) b .nil) := by
  obtain ⟨s, h1, h2⟩ := primes_shapes hn
  refine ⟨fixed_append (primes_fixed n) (fixed_cons rfl h.fixed), ?_, fun after _ => ?_, fun M => ⟨h.linked M, trivial⟩, ?_, ?_,
    fun l => ?_, fun labels => ?_⟩
  · rw [tks_append, primes_tks, tks_cons, ← h.tokens]
    show _ :: _ ++ _ :: b.tokens ++ [] = _
    rw [List.append_nil]
    rfl
  · show (_ && b.ok && true) = true
    rw [primes_ok, h.ok]
    rfl
  · show (b.tame && true) = true
    rw [h.tame]
    rfl
  · show (b.unbroken && true) = true
    rw [h.unbroken]
    rfl
  · obtain ⟨m, hm⟩ := h.steady true { l with style := scriptStyle l.style }
    unfold Scripts.denote
    rw [hm]
    exact ⟨_, rfl⟩
  · show (none, some (Shape.one (primesShapes _ ++ [b.shape labels])).tree) = _
    rw [h1, ← h.shape labels, ← h2]
    rfl

/-! ### The others -/

theorem head_sized {name : Str} {d : DelimRow} (h : name ∈ sizeNames) (hd : d ∈ delimRows) (hs : d.written ≠ .char '.') :
    ∃ hd, HeadGood [.command name, d.written] (.char d.shown) false bracket follows hd := by
  have hr := List.all_eq_true.1 sizes_known name h
  obtain ⟨d1, d2, -, -⟩ := delim_known hd
  have hk := List.all_eq_true.1 sized_known d hd
  rw [decide_eq_false hs, Bool.false_or, Bool.and_eq_true] at hk
  split at hr
  · rename_i size side heq
    have ht : tks [.command name, d.written] = [⟨.big size side, false⟩, ⟨d.written.tok, false⟩] := by
      rw [tks_cons, tok_cmd heq]
      show _ :: [(⟨_, d.written.tight⟩ : Tk)] = _
      rw [delim_loose hd]
      rfl
    obtain ⟨o, ho⟩ := Option.isSome_iff_exists.1 hk.1
    refine ⟨.base (.leaf (.big size side d.written.tok)), fixed_cons (fixed_cmd heq) (fixed_one d1), ht.symm, ⟨_, _, ht, rfl⟩,
      fun _ _ => d2, fun _ => trivial, rfl, rfl, fun l p nxt => ?_, fun labels => ?_, rfl⟩
    · have hd' : ∀ style, Leaf.denote style p nxt (.big size side d.written.tok) = .ok (bigNode size side style p nxt o) := by
        intro style
        simp only [Leaf.denote, someDelim, ho]
        rfl
      unfold Base.denote
      rw [hd']
      exact ⟨_, rfl⟩
    · show (delimShape d.written.tok.unwrapMath.delimiter).tree = _ ∧ preScripted (delimShape d.written.tok.unwrapMath.delimiter) = _
      have h5 := hk.2
      split at h5
      · rename_i c hc
        rw [hc]
        refine ⟨?_, rfl⟩
        show Tree.sym c.text = _
        rw [show c.text = [Char.ofNat d.shown] from of_decide_eq_true h5]
        rfl
      · cases h5
  · cases hr

theorem arrow_known {r : ArrowRow} (h : r ∈ arrowRows) :
    ∃ rel, fixedTok r.name = some (.xarrow rel) ∧ rel.asOp.sc.text = [Char.ofNat r.char] := by
  have hr := List.all_eq_true.1 arrows_known r h
  split at hr
  · rename_i rel heq
    exact ⟨rel, heq, of_decide_eq_true hr⟩
  · cases hr

theorem head_arrow {r : ArrowRow} {la : List Lexeme} {ta : Tree} {a : Arg} (h : r ∈ arrowRows) (ha : ArgGood la ta a) :
    ∃ hd, HeadGood (.command r.name :: la) (.spaced (.node c!"mover" [.char r.char, ta.label true])) false bracket follows hd := by
  obtain ⟨rel, h1, h2⟩ := arrow_known h
  have ht : tks (.command r.name :: la) = ⟨.xarrow rel, false⟩ :: tks la := by rw [tks_cons, tok_cmd h1]; rfl
  refine ⟨.base (.arrow rel a), fixed_cons (fixed_cmd h1) ha.fixed, ?_, ⟨_, _, ht, rfl⟩, fun _ _ => ha.ok, ha.linked, ha.tame,
    ha.unbroken, fun l p nxt => ?_, fun labels => ⟨?_, rfl⟩, rfl⟩
  · rw [ht]
    show _ :: a.tokens = _
    rw [ha.tokens]
  · obtain ⟨n, hn⟩ := ha.steady true { l with style := .script, stacked := true }
    unfold Base.denote
    rw [hn]
    exact ⟨_, rfl⟩
  · show Tree.node _ [_, .node _ [.sym rel.asOp.sc.text, .node _ [.node _ [_, (a.shape labels).tree, _], _]], _] = _
    rw [ha.shape, h2]
    rfl

theorem head_arrowBoth {r : ArrowRow} {la lb : List Lexeme} {ta : Tree} {tb : List Tree} {a : Arg} {f : Form}
    (h : r ∈ arrowRows) (ha : ArgGood la ta a) (hb : TexClosed lb tb true f) :
    ∃ hd, HeadGood (.command r.name :: .char '[' :: (lb ++ .char ']' :: la))
      (.spaced (.node c!"munderover" [.char r.char, Tree.label false (.one tb), ta.label true])) false bracket follows hd := by
  obtain ⟨rel, h1, h2⟩ := arrow_known h
  have ht : tks (.command r.name :: .char '[' :: (lb ++ .char ']' :: la)) = ⟨.xarrow rel, false⟩ :: ⟨.squareBracketOpen, false⟩ ::
      (tks lb ++ ⟨.squareBracketClose, false⟩ :: tks la) := by
    rw [tks_cons, tok_cmd h1, tks_cons, tks_append]
    rfl
  refine ⟨.base (.arrowUnder rel f a), fixed_cons (fixed_cmd h1) (fixed_cons rfl (fixed_append hb.fixed (fixed_cons rfl ha.fixed))),
    ?_, ⟨_, _, ht, rfl⟩, fun _ _ => ?_, fun M => ⟨hb.linked M, ha.linked M⟩, ?_, ?_, fun l p nxt => ?_,
    fun labels => ⟨?_, rfl⟩, rfl⟩
  · rw [ht]
    show _ :: _ :: f.tokens ++ _ :: a.tokens = _
    rw [ha.tokens, hb.tokens]
    rfl
  · show (f.ok true && a.ok) = true
    rw [hb.ok, ha.ok]
    rfl
  · show (f.tame false && a.tame) = true
    rw [hb.tame, ha.tame]
    rfl
  · show (f.unbroken && a.unbroken) = true
    rw [hb.unbroken, ha.unbroken]
    rfl
  · obtain ⟨ns, hns⟩ := hb.steady { l with style := .script, stacked := true } .opening .closing
    obtain ⟨n, hn⟩ := ha.steady true { l with style := .script, stacked := true }
    unfold Base.denote
    rw [hns]
    dsimp only [bind, Except.bind]
    rw [hn]
    exact ⟨_, rfl⟩
  · obtain ⟨e1, e2⟩ := hb.shapes labels
    show Tree.node _ [_, .node _ [.sym rel.asOp.sc.text, .node _ [.node _ [_, (Shape.one (shapesOf (f.pieces labels))).tree, _], _],
      .node _ [.node _ [_, (a.shape labels).tree, _], _]], _] = _
    rw [ha.shape, (one_tree _ e2).1, e1, h2]
    rfl

theorem head_deco {name : Str} {d : Deco} {la : List Lexeme} {ta tree : Tree} {a : Arg} (h : fixedTok name = some d.token)
    (hs : startsScript d.token = false) (ha : ArgGood la ta a)
    (hd : ∀ s : Shape, s.tree = ta → (d.shape s).tree = tree ∧ preScripted (d.shape s) = false) :
    HeadGood (.command name :: la) tree false bracket follows (.base (.deco d a)) := by
  have ht : tks (.command name :: la) = ⟨d.token, false⟩ :: tks la := by rw [tks_cons, tok_cmd h]; rfl
  refine ⟨fixed_cons (fixed_cmd h) ha.fixed, ?_, ⟨_, _, ht, hs⟩,
    fun _ _ => ha.ok, ha.linked, ha.tame, ha.unbroken, fun l p nxt => ?_, fun labels => hd _ (ha.shape labels), rfl⟩
  · rw [ht]
    show _ :: a.tokens = _
    rw [ha.tokens]
  · obtain ⟨n, hn⟩ := ha.steady d.reset l
    unfold Base.denote
    rw [hn]
    exact ⟨_, rfl⟩

theorem head_phantom {name : Str} {la : List Lexeme} {ta : Tree} {a : Arg}
    (h : name ∈ [c!"phantom", c!"hphantom", c!"vphantom"]) (ha : ArgGood la ta a) :
    ∃ hd, HeadGood (.command name :: la)
      (if name = c!"phantom" then .node c!"mphantom" [ta] else .node c!"mpadded" [.node c!"mphantom" [ta]]) false bracket
      follows hd := by
  have hr := List.all_eq_true.1 phantoms_known name h
  unfold phantomRight at hr
  split at hr
  · rename_i heq
    rw [if_pos (of_decide_eq_true hr)]
    refine ⟨_, head_deco (d := .phantom .full) heq rfl ha fun s hs => ⟨?_, rfl⟩⟩
    rw [← hs]
    rfl
  · rename_i k hk heq
    rw [if_neg (of_decide_eq_true hr)]
    refine ⟨_, head_deco (d := .phantom k) heq rfl ha fun s hs => ?_⟩
    rw [← hs]
    cases k with
    | full => exact absurd rfl hk
    | h => exact ⟨rfl, rfl⟩
    | v => exact ⟨rfl, rfl⟩
  · cases hr

theorem marks_trees {α : Type} (xs : List α) :
    Shape.trees (xs.map fun _ => .leaf c!"mrow" []) = List.replicate xs.length (.leaf c!"mrow" []) := by
  induction xs with
  | nil => rfl
  | cons x xs ih =>
    show _ :: Shape.trees _ = _
    rw [ih]
    rfl

theorem head_stroke {r : Str × Nat} {la : List Lexeme} {ta : Tree} {a : Arg} (h : r ∈ strokeRows) (ha : ArgGood la ta a) :
    ∃ hd, HeadGood (.command r.1 :: la) (.node c!"menclose" (ta :: List.replicate r.2 (.leaf c!"mrow" []))) false bracket
      follows hd := by
  have hr := List.all_eq_true.1 strokes_known r h
  split at hr
  · rename_i n heq
    refine ⟨_, head_deco (d := .enclose n) heq rfl ha fun s hs => ⟨?_, rfl⟩⟩
    show Tree.node _ (s.tree :: Shape.trees _) = _
    rw [hs, marks_trees, beq_iff_eq.1 hr]
  · cases hr

/-! ### Text -/

/-- The element of HTML for a font of text -/
def elementOf : HtmlTextStyle → Option Str
  | .bold => some c!"b"
  | .italic => some c!"i"
  | .emphasis => some c!"em"
  | .typewriter => some c!"code"
  | .smallCaps | .sansSerif | .serif => some c!"span"
  | .strikethrough => some c!"s"
  | .underline => some c!"u"
  | .boldItalic => none

/-- The command for text is the one of the converter. -/
def textRight (r : TextRow) : Bool :=
  match fixedTok r.name, r.element with
  | some (.text none), none => true
  | some (.text (some style)), some e => elementOf style == some e
  | _, _ => false

theorem texts_known : textRows.all textRight = true := by decide +kernel

theorem textChars_known : ((List.range 128).all fun n => !isText (Char.ofNat n) ||
    textChar (textLexeme (Char.ofNat n)).tok == some [textShown (Char.ofNat n)]) = true := by decide +kernel

theorem marks_ascii : (textMarks.all fun p => decide (p.1.toNat < 128)) = true := by decide +kernel

theorem lookup_key {α β : Type} [BEq α] [LawfulBEq α] {k : α} {l : List (α × β)} (h : (l.lookup k).isSome = true) : ∃ p ∈ l, p.1 = k := by
  induction l with
  | nil => cases h
  | cons q l ih =>
    rw [List.lookup_cons] at h
    split at h
    · rename_i e
      exact ⟨q, List.mem_cons_self, (beq_iff_eq.1 e).symm⟩
    · obtain ⟨p, hp, e⟩ := ih h
      exact ⟨p, List.mem_cons_of_mem _ hp, e⟩

theorem text_ascii {c : Char} (h : isText c = true) : c.toNat < 128 := by
  unfold isText at h
  simp only [Bool.or_eq_true] at h
  rcases h with (h | h) | h
  · exact ascii_of_alpha h
  · simp only [isAsciiDigit, Bool.and_eq_true, decide_eq_true_eq, Char.le_def, UInt32.le_iff_toNat_le] at h
    have : '9'.val.toNat = 57 := rfl
    have : c.val.toNat = c.toNat := rfl
    omega
  · obtain ⟨p, hp, rfl⟩ := lookup_key h
    exact of_decide_eq_true (List.all_eq_true.1 marks_ascii p hp)

theorem text_char {c : Char} (h : isText c = true) : textChar (textLexeme c).tok = some [textShown c] := by
  have := List.all_eq_true.1 textChars_known _ (List.mem_range.2 (text_ascii h))
  rw [Char.ofNat_toNat, h] at this
  exact beq_iff_eq.1 this

theorem text_by {s : Str} (h : ∀ c ∈ s, isText c = true) :
    textBy textChar (s.map fun c => (textLexeme c).tok) = some (s.map textShown) := by
  induction s with
  | nil => rfl
  | cons c s ih =>
    rw [List.map_cons]
    unfold textBy
    rw [text_char (h c List.mem_cons_self), ih fun d hd => h d (List.mem_cons_of_mem _ hd)]
    rfl

theorem text_tight (c : Char) : (textLexeme c).tight = true := by
  unfold textLexeme
  split <;> rfl

theorem text_fixed (c : Char) : (textLexeme c).fixed = true := by
  unfold textLexeme
  split <;> rfl

theorem text_tks (s : Str) : tks (s.map textLexeme) = tight (s.map fun c => (textLexeme c).tok) := by
  unfold tks tight
  rw [List.map_map, List.map_map]
  refine List.map_congr_left fun c _ => ?_
  show (⟨(textLexeme c).tok, (textLexeme c).tight⟩ : Tk) = _
  rw [text_tight]
  rfl

/-- The element for text -/
theorem text_shape {style : HtmlTextStyle} {e : Str} (h : elementOf style = some e) (s : Str) :
    textShape (some style) s = .elem c!"mtext" [.leaf e s] := by
  cases style <;> first | (cases h; done) | (injection h with h; subst h; rfl)

theorem head_text {r : TextRow} {s : Str} (h : r ∈ textRows) (hne : s ≠ []) (hs : ∀ c ∈ s, isText c = true) :
    ∃ hd, HeadGood (.command r.name :: .next '{' :: (s.map textLexeme ++ [.next '}']))
      (match r.element with
        | none => .leaf c!"mtext" (s.map textShown)
        | some name => .node c!"mtext" [.leaf name (s.map textShown)]) false bracket follows hd := by
  have hr := List.all_eq_true.1 texts_known r h
  have hb := text_by hs
  have key : ∃ style, fixedTok r.name = some (.text style) ∧ ∀ s, (textShape style s).tree = (match r.element with
      | none => .leaf c!"mtext" s
      | some name => .node c!"mtext" [.leaf name s]) ∧ preScripted (textShape style s) = false := by
    unfold textRight at hr
    split at hr
    · rename_i h1 h2
      rw [h2]
      exact ⟨none, h1, fun _ => ⟨rfl, rfl⟩⟩
    · rename_i style e h1 h2
      rw [h2]
      refine ⟨some style, h1, fun s => ?_⟩
      rw [text_shape (beq_iff_eq.1 hr)]
      exact ⟨rfl, rfl⟩
    · cases hr
  obtain ⟨style, h1, h2⟩ := key
  have ht : tks (.command r.name :: .next '{' :: (s.map textLexeme ++ [.next '}'])) = ⟨.text style, false⟩ ::
      ⟨.groupBegin, true⟩ :: (tight (s.map fun c => (textLexeme c).tok) ++ [⟨.groupEnd, true⟩]) := by
    rw [tks_cons, tok_cmd h1, tks_cons, tks_append, text_tks]
    rfl
  refine ⟨.base (.leaf (.textBox style (s.map fun c => (textLexeme c).tok))), fixed_cons (fixed_cmd h1) (fixed_cons rfl
    (fixed_append (fun l hl => ?_) (fixed_one rfl))), ht.symm, ⟨_, _, ht, rfl⟩, fun _ _ => ?_, fun _ => trivial, rfl, rfl,
    fun l p nxt => ⟨_, rfl⟩, fun labels => ?_, rfl⟩
  · obtain ⟨c, -, rfl⟩ := List.mem_map.1 hl
    exact text_fixed c
  · show (textBy textChar _).isSome = true
    rw [hb]
    rfl
  · have hsh : Leaf.shape labels (.textBox style (s.map fun c => (textLexeme c).tok)) = textShape style (s.map textShown) := by
      unfold Leaf.shape
      dsimp only
      rw [hb]
      cases s with
      | nil => exact absurd rfl hne
      | cons c s => rfl
    have hb' : Head.shape labels (.base (.leaf (.textBox style (s.map fun c => (textLexeme c).tok)))) = textShape style (s.map textShown) := by
      rw [← hsh]
      simp only [Head.shape, Base.shape]
    rw [hb']
    exact h2 _

/-! ### Words in alphabets -/

theorem font_letters {r : FontRow} (h : r ∈ fontRows) : ∃ tf, fixedTok r.name = some (.transform tf) ∧
    ∀ c, isAsciiAlpha c = true → (r.capitalA == 0x1d504 && c == 'I') = false →
      ∃ sc, fontChar tf (Lexer.charToken c) = some sc ∧ sc.text = r.shown c := by
  have hr := List.all_eq_true.1 fonts_known r h
  split at hr
  · rename_i tf heq
    refine ⟨tf, heq, fun c hc hI => ?_⟩
    have hr := List.all_eq_true.1 hr _ (List.mem_range.2 (ascii_of_alpha hc))
    rw [Char.ofNat_toNat, hc, hI] at hr
    simp only [Bool.not_true, Bool.false_or] at hr
    split at hr
    · rename_i s hs
      exact ⟨s, hs, of_decide_eq_true hr⟩
    · cases hr
  · cases hr

theorem font_word {r : FontRow} {tf : MathVariant} {s : Str}
    (h : ∀ c ∈ s, ∃ sc, fontChar tf (Lexer.charToken c) = some sc ∧ sc.text = r.shown c) :
    ∃ cs, fontWord tf (s.map Lexer.charToken) = some cs ∧ cs.flatMap SuperChar.text = s.flatMap r.shown ∧ cs.length = s.length := by
  induction s with
  | nil => exact ⟨[], rfl, rfl, rfl⟩
  | cons c s ih =>
    obtain ⟨sc, h1, h2⟩ := h c List.mem_cons_self
    obtain ⟨cs, h3, h4, h5⟩ := ih fun d hd => h d (List.mem_cons_of_mem _ hd)
    refine ⟨sc :: cs, ?_, ?_, ?_⟩
    · show (fontChar tf (Lexer.charToken c) >>= fun c' => fontWord tf (s.map Lexer.charToken) >>= fun cs' => some (c' :: cs')) = _
      rw [h1, h3]
      rfl
    · rw [List.flatMap_cons, List.flatMap_cons, h2, h4]
    · rw [List.length_cons, List.length_cons, h5]

theorem chars_tks (s : Str) : tks (s.map .char) = (s.map Lexer.charToken).map fun t => ⟨t, false⟩ := by
  unfold tks
  rw [List.map_map, List.map_map]
  rfl

theorem head_word {r : FontRow} {s : Str} (h : r ∈ fontRows) (hn : 2 ≤ s.length) (hs : ∀ c ∈ s, isAsciiAlpha c = true)
    (hI : (r.capitalA == 0x1d504 && s.contains 'I') = false) :
    ∃ hd, HeadGood (.command r.name :: braced (s.map .char)) (.sym (s.flatMap r.shown)) false bracket follows hd := by
  obtain ⟨tf, h1, h2⟩ := font_letters h
  obtain ⟨cs, h3, h4, h5⟩ := font_word (r := r) (tf := tf) (s := s) fun c hc => h2 c (hs c hc) (by
    cases hr : (r.capitalA == 0x1d504) with
    | false => rfl
    | true =>
      rw [hr, Bool.true_and] at hI
      rw [Bool.true_and]
      cases he : (c == 'I') with
      | false => rfl
      | true =>
        rw [beq_iff_eq.1 he] at hc
        rw [List.contains_iff_mem.2 hc] at hI
        cases hI)
  have ht : tks (.command r.name :: braced (s.map .char)) = ⟨.transform tf, false⟩ :: ⟨.groupBegin, false⟩ ::
      (s.map Lexer.charToken).map (fun t => ⟨t, false⟩) ++ [⟨.groupEnd, false⟩] := by
    rw [tks_cons, tok_cmd h1, tks_braces, chars_tks]
    rfl
  refine ⟨.base (.leaf (.font tf (s.map Lexer.charToken))), fixed_cons (fixed_cmd h1) (fixed_braces fun l hl => ?_), ht.symm,
    ⟨_, _, ht, rfl⟩, fun _ _ => ?_, fun _ => trivial, rfl, rfl, fun l p nxt => ⟨_, rfl⟩, fun _ => ?_, rfl⟩
  · obtain ⟨c, -, rfl⟩ := List.mem_map.1 hl
    rfl
  · show Leaf.ok (.font tf (s.map Lexer.charToken)) = true
    simp only [Leaf.ok, h3]
    cases s with
    | nil => simp at hn
    | cons c s => rfl
  · show (wordShape tf ((fontWord tf _).getD [])).tree = _ ∧ preScripted (wordShape tf ((fontWord tf _).getD [])) = _
    rw [h3]
    show (wordShape tf cs).tree = _ ∧ preScripted (wordShape tf cs) = _
    match cs, h4, h5 with
    | [], _, h5 => rw [← h5] at hn; simp at hn
    | [_], _, h5 => rw [← h5] at hn; simp at hn
    | a :: b :: cs, h4, _ =>
      refine ⟨?_, rfl⟩
      show Tree.sym ((a :: b :: cs).flatMap SuperChar.text) = _
      rw [h4]

/-! ### Limits -/

set_option maxRecDepth 100000 in
theorem ops_known : namedSymbols.all (fun r => decide (r.type ≠ .op) || decide (r.name ∈ oddSymbols) ||
    match fixedTok r.name with
    | some (.op o) => decide (o.cat ≠ .C) && showsNat o.asOp.sc r.char
    | _ => false) = true := by decide +kernel

/-- The place of limits -/
def limitsKind (above : Bool) : LimitsKind := if above then .always else .never

theorem limits_known (above : Bool) : fixedTok (limitsName above) = some (.limits (limitsKind above)) := by
  have h : ∀ {o : Option Token} {t : Token}, (match o with | some t' => sameTok t' t | none => false) = true → o = some t := by
    intro o t h
    cases o with
    | none => cases h
    | some t' => rw [sameTok_eq h]
  cases above <;> (refine h ?_; decide +kernel)

theorem limits_set (above w : Bool) : limitsSet (some (limitsKind above)) w = above := by
  cases above <;> rfl

theorem head_symbolLimits {r : SymbolRow} {above : Bool} (h : r ∈ namedSymbols) (ho : r.name ∉ oddSymbols) (hop : r.type = .op) :
    ∃ hd, HeadGood [.command r.name, .command (limitsName above)] (.char r.char) above bracket follows hd := by
  have hr := List.all_eq_true.1 ops_known r h
  rw [decide_eq_false (fun e => e hop), decide_eq_false ho] at hr
  simp only [Bool.false_or] at hr
  split at hr
  · rename_i o heq
    rw [Bool.and_eq_true, decide_eq_true_eq] at hr
    have h2 : o.asOp.sc.text = [Char.ofNat r.char] := of_decide_eq_true hr.2
    have ht : tks [.command r.name, .command (limitsName above)] = [⟨.op o, false⟩, ⟨.limits (limitsKind above), false⟩] := by
      rw [tks_cons, tok_cmd heq, tks_cons, tok_cmd (limits_known above)]
      rfl
    refine ⟨.big ⟨o, some (limitsKind above), none⟩, fixed_cons (fixed_cmd heq) (fixed_one (fixed_cmd (limits_known above))), ht.symm,
      ⟨_, _, ht, rfl⟩, fun _ _ => ?_, fun _ => trivial, rfl, rfl, trivial, fun _ => ⟨?_, rfl⟩, ?_⟩
    · show (!decide (o.cat = .C) || _) = true
      rw [decide_eq_false hr.1]
      rfl
    · show Tree.sym o.asOp.sc.text = _
      rw [h2]
      rfl
    · show (decide (o.cat ≠ .C) && limitsSet _ _) = _
      rw [decide_eq_true hr.1, limits_set]
      rfl
  · cases hr

theorem function_known {r : FunctionRow} (h : r ∈ functionRows) : ∃ w : Bool, fixedTok r.name =
    some (if w then .pseudoOperatorLimits r.shown else .pseudoOperator r.shown) ∧ plainName r.shown = true := by
  have hr := List.all_eq_true.1 functions_known r h
  split at hr
  · rename_i s heq
    simp only [Bool.and_eq_true, decide_eq_true_eq, Bool.not_eq_true'] at hr
    obtain ⟨⟨rfl, h2⟩, h3⟩ := hr
    exact ⟨false, heq, h3⟩
  · rename_i s heq
    simp only [Bool.and_eq_true, decide_eq_true_eq] at hr
    obtain ⟨⟨rfl, h2⟩, h3⟩ := hr
    exact ⟨true, heq, h3⟩
  · cases hr

theorem head_functionLimits {r : FunctionRow} {above : Bool} (h : r ∈ functionRows) :
    ∃ hd, HeadGood [.command r.name, .command (limitsName above)] (.sym r.shown) above bracket follows hd := by
  obtain ⟨w, h1, h3⟩ := function_known h
  have ht : tks [.command r.name, .command (limitsName above)] =
      [⟨if w then .pseudoOperatorLimits r.shown else .pseudoOperator r.shown, false⟩, ⟨.limits (limitsKind above), false⟩] := by
    rw [tks_cons, tok_cmd h1, tks_cons, tok_cmd (limits_known above)]
    rfl
  exact ⟨.func ⟨.known r.shown, some (limitsKind above)⟩ w, fixed_cons (fixed_cmd h1) (fixed_one (fixed_cmd (limits_known above))),
    ht.symm, ⟨_, _, ht, by cases w <;> rfl⟩, fun _ _ => rfl, fun _ => trivial, h3, rfl, trivial, fun _ => ⟨rfl, rfl⟩, limits_set _ _⟩

theorem starred_known : fixedTok c!"operatorname*" = some (.operatorName true) := by
  have h : ∀ {o : Option Token} {t : Token}, (match o with | some t' => sameTok t' t | none => false) = true → o = some t := by
    intro o t h
    cases o with
    | none => cases h
    | some t' => rw [sameTok_eq h]
  refine h ?_
  decide +kernel

theorem head_operatorLimits {name : Str} (h : ∀ c ∈ name, isAsciiAlpha c = true) :
    ∃ hd, HeadGood (.command c!"operatorname*" :: braced (name.map .char)) (.sym name) true bracket follows hd := by
  have h1 := starred_known
  have hs := name_spelled name h
  have ht : tks (.command c!"operatorname*" :: braced (name.map .char)) = ⟨.operatorName true, false⟩ ::
      ⟨.groupBegin, false⟩ :: (name.map Lexer.charToken).map (fun t => ⟨t, false⟩) ++ [⟨.groupEnd, false⟩] := by
    rw [tks_cons, tok_cmd h1, tks_braces, chars_tks]
    rfl
  have hsh : FuncName.shown (.spelled (name.map Lexer.charToken)) = name := by
    show (textBy _ _).getD [] = _
    rw [hs]
    rfl
  refine ⟨.func ⟨.spelled (name.map Lexer.charToken), none⟩ true, fixed_cons (fixed_cmd h1) (fixed_braces fun l hl => ?_), ?_,
    ⟨_, _, ht, rfl⟩, fun _ _ => ?_, fun _ => trivial, ?_, rfl, trivial, fun _ => ⟨?_, rfl⟩, rfl⟩
  · obtain ⟨c, -, rfl⟩ := List.mem_map.1 hl
    rfl
  · rw [ht]
    exact List.append_nil _
  · show (textBy _ _).isSome = true
    rw [hs]
    rfl
  · show plainName (FuncName.shown _) = true
    rw [hsh]
    exact name_plain name h
  · show Tree.sym (FuncName.shown _) = _
    rw [hsh]

/-! ### Negations -/

/-- The negation of a relation is the right one. -/
def negatedRight (r : NegatedRow) : Bool :=
  r.written.fixed && !r.written.tight &&
  match r.written.tok.unwrapMath with
  | .relation rel => showsNat (rel.asOp.sc.withOverlay .solidus) r.shown
  | _ => false

set_option maxRecDepth 100000 in
theorem negated_known : negatedRows.all negatedRight = true := by decide +kernel

theorem not_known : fixedTok c!"not" = some (.overlay .solidus) := by
  have h : ∀ {o : Option Token} {t : Token}, (match o with | some t' => sameTok t' t | none => false) = true → o = some t := by
    intro o t h
    cases o with
    | none => cases h
    | some t' => rw [sameTok_eq h]
  refine h ?_
  decide +kernel

theorem head_negated {r : NegatedRow} (h : r ∈ negatedRows) :
    ∃ hd, HeadGood [.command c!"not", r.written] (.char r.shown) false bracket follows hd := by
  have hr := List.all_eq_true.1 negated_known r h
  unfold negatedRight at hr
  simp only [Bool.and_eq_true, Bool.not_eq_true'] at hr
  obtain ⟨⟨h1, h2⟩, h3⟩ := hr
  split at h3
  · rename_i rel heq
    have ht : tks [.command c!"not", r.written] = [⟨.overlay .solidus, false⟩, ⟨r.written.tok, false⟩] := by
      rw [tks_cons, tok_cmd not_known]
      show _ :: [(⟨_, r.written.tight⟩ : Tk)] = _
      rw [h2]
      rfl
    refine ⟨.base (.overlay .solidus (.atom r.written.tok)), fixed_cons (fixed_cmd not_known) (fixed_one h1), ht.symm,
      ⟨_, _, ht, rfl⟩, fun _ _ => ?_, fun _ => trivial, rfl, rfl, fun l p nxt => ?_, fun labels => ?_, rfl⟩
    · show (isAtom r.written.tok.unwrapMath && !(false && _)) = true
      rw [heq]
      rfl
    · unfold Base.denote
      unfold Base.denote
      rw [heq]
      exact ⟨_, rfl⟩
    · have hs : (Base.overlay .solidus (.atom r.written.tok)).shape labels = .op (rel.asOp.sc.withOverlay .solidus) := by
        show Shape.struck .solidus (atomShape r.written.tok.unwrapMath) = _
        rw [heq]
        rfl
      show ((Base.overlay .solidus (.atom r.written.tok)).shape labels).tree = _ ∧ preScripted ((Base.overlay .solidus (.atom r.written.tok)).shape labels) = _
      rw [hs]
      refine ⟨?_, rfl⟩
      show Tree.sym _ = _
      rw [show (rel.asOp.sc.withOverlay .solidus).text = [Char.ofNat r.shown] from of_decide_eq_true h3]
      rfl
  · cases h3

/-! ### Delimiters in the middle -/

theorem middle_known : fixedTok c!"middle" = some .middle := by
  have h : ∀ {o : Option Token} {t : Token}, (match o with | some t' => sameTok t' t | none => false) = true → o = some t := by
    intro o t h
    cases o with
    | none => cases h
    | some t' => rw [sameTok_eq h]
  refine h ?_
  decide +kernel

theorem head_middle {d : DelimRow} (hd : d ∈ delimRows) (hs : d.written ≠ .char '.') :
    HeadGood [.command c!"middle", d.written] (.char d.shown) false bracket follows (.base (.leaf (.middle d.written.tok))) := by
  obtain ⟨d1, d2, -, -⟩ := delim_known hd
  have hk := List.all_eq_true.1 sized_known d hd
  rw [decide_eq_false hs, Bool.false_or, Bool.and_eq_true] at hk
  have ht : tks [.command c!"middle", d.written] = [⟨.middle, false⟩, ⟨d.written.tok, false⟩] := by
    rw [tks_cons, tok_cmd middle_known]
    show _ :: [(⟨_, d.written.tight⟩ : Tk)] = _
    rw [delim_loose hd]
    rfl
  obtain ⟨o, ho⟩ := Option.isSome_iff_exists.1 hk.1
  refine ⟨fixed_cons (fixed_cmd middle_known) (fixed_one d1), ht.symm, ⟨_, _, ht, rfl⟩,
    fun _ _ => d2, fun _ => trivial, rfl, rfl, fun l p nxt => ?_, fun labels => ?_, rfl⟩
  · have hd' : ∃ x, ∀ style, Leaf.denote style p nxt (.middle d.written.tok) = .ok x := by
      simp only [Leaf.denote, someDelim, ho]
      exact ⟨_, fun _ => rfl⟩
    obtain ⟨x, hx⟩ := hd'
    unfold Base.denote
    rw [hx]
    exact ⟨_, rfl⟩
  · show (delimShape d.written.tok.unwrapMath.delimiter).tree = _ ∧ preScripted (delimShape d.written.tok.unwrapMath.delimiter) = _
    have h5 := hk.2
    split at h5
    · rename_i c hc
      rw [hc]
      refine ⟨?_, rfl⟩
      show Tree.sym c.text = _
      rw [show c.text = [Char.ofNat d.shown] from of_decide_eq_true h5]
      rfl
    · cases h5

/-- One formula in front of another one -/
theorem extends_trans {la lb : List Lexeme} {ta tb : List Tree} {k j f : Form} (hf : Extends la ta bracket k f)
    (hk : Extends lb tb bracket j k) : Extends (la ++ lb) (ta ++ tb) bracket j f := by
  refine ⟨fixed_append hf.fixed hk.fixed, ?_, hf.first, fun h => hf.ok (hk.ok h), fun M h => hf.linked M (hk.linked M h),
    fun sep h => hf.tame sep (hk.tame sep h), fun h => hf.unbroken (hk.unbroken h),
    fun l l' nxt h => hf.steady l l' nxt (hk.steady l l' nxt h),
    fun hc h => hf.simple (fun l hl => hc l (List.mem_append_left _ hl)) (hk.simple (fun l hl => hc l (List.mem_append_right _ hl)) h),
    ⟨hf.split.1.trans hk.split.1, hf.split.2.trans hk.split.2⟩, fun labels => ?_⟩
  · rw [hf.tokens, hk.tokens, tks_append, List.append_assoc]
  · obtain ⟨s1, a1, a2, a3⟩ := hf.pieces labels
    obtain ⟨s2, b1, b2, b3⟩ := hk.pieces labels
    refine ⟨s1 ++ s2, ?_, ?_, fun s hs => ?_⟩
    · rw [a1, b1, List.map_append, List.append_assoc]
    · rw [trees_append, a2, b2]
    · rcases List.mem_append.1 hs with h | h
      · exact a3 s h
      · exact b3 s h

/-- A delimiter in the middle, and what comes after it -/
theorem extends_middle {d : DelimRow} {lg : List Lexeme} {tg : List Tree} {g : Form} (hd : d ∈ delimRows)
    (hs : d.written ≠ .char '.') (hg : Extends lg tg false .nil g) :
    ∃ k, stops k ∧ Extends (.command c!"middle" :: d.written :: lg) (.char d.shown :: tg) false .nil k := by
  have h := extends_item (follows := fun _ => True) (head_middle (bracket := false) hd hs) scr_none hg trivial
  refine ⟨_, ?_, h⟩
  have ht := h.tokens
  constructor
  · exact h.first
  · rw [ht, List.cons_append, tks_cons, tok_cmd middle_known]
    rfl

/-! ### Styles -/

theorem styles_known : styleNames.all (fun n => match fixedTok n with
    | some (.style _) => true | _ => false) = true := by decide +kernel

theorem extends_style {name : Str} {lr : List Lexeme} {ts : List Tree} {r : Form} (h : name ∈ styleNames)
    (hr : Extends lr ts false .nil r) : ∃ f, Extends (.command name :: lr) [.node c!"mrow" ts] false .nil f := by
  have hk := List.all_eq_true.1 styles_known name h
  split at hk
  · rename_i st heq
    have ht : tks (.command name :: lr) = ⟨.style st, false⟩ :: tks lr := by rw [tks_cons, tok_cmd heq]; rfl
    have hc := hr.closed
    refine ⟨.style st r, fixed_cons (fixed_cmd heq) hr.fixed, ?_, rfl, fun _ => ?_, fun M _ => hc.linked M, fun _ _ => hc.tame false,
      fun _ => hc.unbroken, fun l l' nxt hk p => ?_, fun hk _ _ => ?_, ⟨rfl, rfl⟩, fun labels => ?_⟩
    · rw [ht]
      show _ :: r.tokens = _
      rw [hc.tokens]
      exact (List.append_nil _).symm
    · show (!false && r.ok false) = true
      rw [hc.ok]
      rfl
    · obtain ⟨ns, hn⟩ := hc.steady { l with style := st } p nxt
      obtain ⟨ns', hk⟩ := hk p
      cases hk
      unfold Form.denote
      rw [hn]
      exact ⟨_, rfl⟩
    · refine form_quiet r false (hc.tame false) (hc.linked _) ?_
      rw [hc.tokens]
      exact calm_tks fun l hl => hk l (List.mem_cons_of_mem _ hl)
    · obtain ⟨e1, e2⟩ := hc.shapes labels
      refine ⟨[.elem c!"mrow" (shapesOf (r.pieces labels))], rfl, ?_, fun s hs => ?_⟩
      · show [Tree.node _ (Shape.trees _)] = _
        rw [e1]
      · rw [List.mem_singleton.1 hs]
        rfl
  · cases hk

end Verif

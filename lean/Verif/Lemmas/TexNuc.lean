import Verif.Lemmas.TexForm
/-! The parts of formulas of LaTeX as parts of formulas of the grammar. -/
namespace Verif
open Model Spec

theorem fixed_cmd {name : Str} {t : Token} (h : fixedTok name = some t) : (Lexeme.command name).fixed = true := by
  show (fixedTok name).isSome = true
  rw [h]
  rfl

theorem tok_cmd {name : Str} {t : Token} (h : fixedTok name = some t) : (Lexeme.command name).tok = t := by
  show (fixedTok name).getD .relax = t
  rw [h]
  rfl

variable {bracket : Bool} {follows : List Tk → Prop}

theorem head_char {c : Char} (h : isSymbol c = true) (hd : isAsciiDigit c = false) (hb : bracket = true → c ≠ ']') :
    ∃ hd, HeadGood [.char c] (.sym [shownFor c]) (typedSymbol c).limits bracket follows hd := by
  refine symbol_head (t := Lexer.charToken c) (x := typedSymbol c) (typed_stands h) (typed_limits h) (fun d e => ?_)
    (symbol_shown h) (fun e e' => ?_) (fixed_one rfl) rfl follows
  · rw [(charToken_digit e).1] at hd
    cases hd
  · rcases shownFor_eq (show shownFor c = ']' from e') with h' | h' | h' | h' | h'
    · exact hb e h'
    all_goals exact absurd h' (by decide)

theorem head_named {r : SymbolRow} (h : r ∈ namedSymbols) (ho : r.name ∉ oddSymbols) (hb : bracket = true → r.char ≠ 0x5d) :
    ∃ hd, HeadGood [.command r.name] (.char r.char) r.symbol.limits bracket follows hd := by
  obtain ⟨t, h1, h2, h3, h4, h5⟩ := named_known h ho
  refine symbol_head (t := t) (x := r.symbol) h2 h3 h4 h5 (fun e e' => ?_) (fixed_one (fixed_cmd h1)) ?_ follows
  · exact hb e (char_ofNat e' (by decide))
  · show [(⟨(Lexeme.command r.name).tok, false⟩ : Tk)] = _
    rw [tok_cmd h1]

theorem head_function {r : FunctionRow} (h : r ∈ functionRows) :
    ∃ hd, HeadGood [.command r.name] (.sym r.shown) r.limits bracket follows hd := by
  have hr := List.all_eq_true.1 functions_known r h
  have key : ∃ w, fixedTok r.name = some (if w then .pseudoOperatorLimits r.shown else .pseudoOperator r.shown) ∧ w = r.limits ∧
      plainName r.shown = true := by
    split at hr
    · rename_i s heq
      simp only [Bool.and_eq_true, decide_eq_true_eq, Bool.not_eq_true'] at hr
      obtain ⟨⟨rfl, h2⟩, h3⟩ := hr
      exact ⟨false, heq, h2.symm, h3⟩
    · rename_i s heq
      simp only [Bool.and_eq_true, decide_eq_true_eq] at hr
      obtain ⟨⟨rfl, h2⟩, h3⟩ := hr
      exact ⟨true, heq, h2.symm, h3⟩
    · cases hr
  obtain ⟨w, h1, h2, h3⟩ := key
  have ht : tks [.command r.name] = [⟨if w then .pseudoOperatorLimits r.shown else .pseudoOperator r.shown, false⟩] := by
    show [(⟨(Lexeme.command r.name).tok, false⟩ : Tk)] = _
    rw [tok_cmd h1]
  refine ⟨.func ⟨.known r.shown, none⟩ w, fixed_one (fixed_cmd h1), ht.symm, ⟨_, [], ht, by cases w <;> rfl⟩, fun _ _ => rfl,
    fun _ => trivial, h3, rfl, trivial, fun _ => ⟨rfl, rfl⟩, h2⟩

theorem name_spelled (name : Str) (h : ∀ c ∈ name, isAsciiAlpha c = true) :
    textBy (fun t => nameChar t.unwrapMath) (name.map Lexer.charToken) = some name := by
  induction name with
  | nil => rfl
  | cons c name ih =>
    have hc : nameChar (Lexer.charToken c).unwrapMath = some [c] := by
      rw [alpha_token (h c List.mem_cons_self)]
      show some (SuperChar.fromChar c).text = _
      rw [fromChar_eq, symWord_text]
      rfl
    rw [List.map_cons]
    unfold textBy
    rw [hc, ih fun d hd => h d (List.mem_cons_of_mem _ hd)]
    rfl

theorem name_plain (name : Str) (h : ∀ c ∈ name, isAsciiAlpha c = true) : plainName name = true := by
  have key : ∀ d, isAsciiAlpha d = false → name.contains d = false := by
    intro d hd
    cases hc : name.contains d with
    | false => rfl
    | true =>
      have := h d (by simpa using hc)
      rw [hd] at this
      cases this
  unfold plainName
  rw [key _ (by decide), key _ (by decide), key _ (by decide)]
  rfl

theorem head_operator {name : Str} (h : ∀ c ∈ name, isAsciiAlpha c = true) :
    ∃ hd, HeadGood (.command c!"operatorname" :: braced (name.map .char)) (.sym name) false bracket follows hd := by
  have h1 := structure_known.2.2.2.2.2.1
  have hs := name_spelled name h
  have hm : tks (name.map .char) = (name.map Lexer.charToken).map fun t => ⟨t, false⟩ := by
    unfold tks
    rw [List.map_map, List.map_map]
    rfl
  have ht : tks (.command c!"operatorname" :: braced (name.map .char)) = ⟨.operatorName false, false⟩ ::
      ⟨.groupBegin, false⟩ :: (name.map Lexer.charToken).map (fun t => ⟨t, false⟩) ++ [⟨.groupEnd, false⟩] := by
    rw [tks_cons, tok_cmd h1, tks_braces, hm]
    rfl
  have hsh : FuncName.shown (.spelled (name.map Lexer.charToken)) = name := by
    show (textBy _ _).getD [] = _
    rw [hs]
    rfl
  refine ⟨.func ⟨.spelled (name.map Lexer.charToken), none⟩ false, fixed_cons (fixed_cmd h1) (fixed_braces fun l hl => ?_), ?_,
    ⟨_, _, ht, rfl⟩, fun _ _ => ?_, fun _ => trivial, ?_, rfl, trivial, fun _ => ⟨?_, rfl⟩, rfl⟩
  · obtain ⟨c, -, rfl⟩ := List.mem_map.1 hl
    rfl
  · rw [ht]
    exact List.append_nil _
  · show (textBy _ _).isSome = true
    rw [hs]
    rfl
  · show plainName (FuncName.shown _) = true
    rw [hsh]
    exact name_plain name h
  · show Tree.sym (FuncName.shown _) = _
    rw [hsh]

theorem digits_plain (ds : Str) (h : ∀ c ∈ ds, isAsciiDigit c = true) :
    digitTokens fullStop (ds.map (false, ·)) = tks (ds.map .char) ∧ digitText (ds.map (false, ·)) = ds := by
  induction ds with
  | nil => exact ⟨rfl, rfl⟩
  | cons d ds ih =>
    obtain ⟨i1, i2⟩ := ih fun c hc => h c (List.mem_cons_of_mem _ hc)
    refine ⟨?_, ?_⟩
    · show (⟨.digit d, false⟩ : Tk) :: digitTokens fullStop (ds.map (false, ·)) = ⟨Lexer.charToken d, false⟩ :: _
      rw [i1, digit_token (h d List.mem_cons_self)]
      rfl
    · show d :: digitText (ds.map (false, ·)) = _
      rw [i2]

set_option maxRecDepth 100000 in
theorem dot_token : Lexer.charToken '.' = fullStop := rfl

theorem head_number {w d : Str} (hne : w ≠ []) (hw : ∀ c ∈ w, isAsciiDigit c = true) (hd : ∀ c ∈ d, isAsciiDigit c = true)
    (hf : ∀ ts, follows ts → headNot continuesNumber ts = true) :
    ∃ hd, HeadGood ((numberText w d).map .char) (.leaf c!"mn" (numberText w d)) false bracket follows hd := by
  have hfix : ∀ s : Str, ∀ l ∈ s.map Lexeme.char, l.fixed = true := by
    intro s l hl
    obtain ⟨c, -, rfl⟩ := List.mem_map.1 hl
    rfl
  match w, hne, hw with
  | c :: w, _, hw =>
    have hc := digit_token (hw c List.mem_cons_self)
    obtain ⟨w1, w2⟩ := digits_plain w fun c hc => hw c (List.mem_cons_of_mem _ hc)
    have key : ∃ more, ⟨.digit c, false⟩ :: digitTokens fullStop more = tks ((numberText (c :: w) d).map .char) ∧
        c :: digitText more = numberText (c :: w) d := by
      match d, hd with
      | [], _ =>
        refine ⟨w.map (false, ·), ?_, ?_⟩
        · show _ = tks (.char c :: ((w ++ []).map .char))
          rw [List.append_nil, tks_cons, w1, ← hc]
          rfl
        · show _ = c :: (w ++ [])
          rw [List.append_nil, w2]
      | e :: d, hd =>
        obtain ⟨d1, d2⟩ := digits_plain d fun c hc => hd c (List.mem_cons_of_mem _ hc)
        have he := digit_token (hd e List.mem_cons_self)
        refine ⟨w.map (false, ·) ++ (true, e) :: d.map (false, ·), ?_, ?_⟩
        · show _ :: List.flatMap _ _ = tks (.char c :: ((w ++ '.' :: e :: d).map .char))
          rw [List.flatMap_append, List.map_append, tks_cons, tks_append]
          show _ :: (digitTokens fullStop (w.map (false, ·)) ++ ⟨fullStop, false⟩ :: ⟨.digit e, false⟩ ::
            digitTokens fullStop (d.map (false, ·))) = _
          have hp : tks (('.' :: e :: d).map Lexeme.char) =
              ⟨Lexer.charToken '.', false⟩ :: ⟨Lexer.charToken e, false⟩ :: tks (d.map .char) := rfl
          rw [w1, d1, ← hc, ← he, hp, dot_token]
          rfl
        · show c :: List.flatMap _ _ = c :: (w ++ '.' :: e :: d)
          rw [List.flatMap_append]
          show c :: (digitText (w.map (false, ·)) ++ '.' :: e :: digitText (d.map (false, ·))) = _
          rw [w2, d2]
    obtain ⟨more, k1, k2⟩ := key
    refine ⟨.base (.number c more), hfix _, k1, ⟨_, _, k1.symm, rfl⟩, fun after ha => hf after ha, fun _ => trivial, rfl, rfl,
      fun _ _ _ => ⟨_, rfl⟩, fun _ => ⟨?_, rfl⟩, rfl⟩
    show Tree.leaf _ (c :: digitText more) = _
    rw [k2]

theorem head_braces {ls : List Lexeme} {ts : List Tree} {f : Form} (h : TexClosed ls ts false f) :
    HeadGood (braced ls) (.one ts) false bracket follows (.base (.group f)) := by
  refine ⟨fixed_braces h.fixed, ?_, ⟨_, _, tks_braces ls, rfl⟩, fun _ _ => h.ok, h.linked, h.tame false, h.unbroken,
    fun l p nxt => ?_, fun labels => ?_, rfl⟩
  · show _ :: f.tokens ++ _ = _
    rw [h.tokens, tks_braces]
  · obtain ⟨ns, hn⟩ := h.steady l .opening .ending
    refine ⟨(.default, nodeVecToNode ns false), ?_⟩
    unfold Base.denote
    rw [hn]
    rfl
  · obtain ⟨e1, e2⟩ := h.shapes labels
    obtain ⟨e3, e4⟩ := one_tree _ e2
    exact ⟨by rw [← e1]; exact e3, e4⟩

theorem head_fraction {binomial : Bool} {name : Str} {la lb : List Lexeme} {ta tb : Tree} {a b : Arg}
    (h : name ∈ if binomial then binomialNames else fractionNames) (ha : ArgGood la ta a) (hb : ArgGood lb tb b) :
    ∃ hd, HeadGood (.command name :: (la ++ lb))
      (if binomial then .node c!"mrow" [.char 0x28, .node c!"mfrac" [ta, tb], .char 0x29] else .node c!"mfrac" [ta, tb])
      false bracket follows hd := by
  have key : ∃ attr, fixedTok name = some (if binomial then .binom attr else .frac attr) := by
    cases binomial with
    | false =>
      have hr := List.all_eq_true.1 fractions_known name h
      split at hr
      · rename_i attr heq
        exact ⟨attr, heq⟩
      · cases hr
    | true =>
      have hr := List.all_eq_true.1 binomials_known name h
      split at hr
      · rename_i attr heq
        exact ⟨attr, heq⟩
      · cases hr
  obtain ⟨attr, h1⟩ := key
  have ht : tks (.command name :: (la ++ lb)) = ⟨if binomial then .binom attr else .frac attr, false⟩ :: (tks la ++ tks lb) := by
    rw [tks_cons, tok_cmd h1, tks_append]
    rfl
  refine ⟨.base (.frac attr binomial a b), fixed_cons (fixed_cmd h1) (fixed_append ha.fixed hb.fixed), ?_,
    ⟨_, _, ht, by cases binomial <;> rfl⟩, fun _ _ => ?_, fun M => ⟨ha.linked M, hb.linked M⟩, ?_, ?_, fun l p nxt => ?_,
    fun labels => ?_, rfl⟩
  · rw [ht]
    show _ :: a.tokens ++ b.tokens = _
    rw [ha.tokens, hb.tokens]
    rfl
  · show (a.ok && b.ok) = true
    rw [ha.ok, hb.ok]
    rfl
  · show (a.tame && b.tame) = true
    rw [ha.tame, hb.tame]
    rfl
  · show (a.unbroken && b.unbroken) = true
    rw [ha.unbroken, hb.unbroken]
    rfl
  · obtain ⟨na, h2⟩ := ha.steady true { l with style := fractionStyle l.style attr }
    obtain ⟨nb, h3⟩ := hb.steady true { l with style := fractionStyle l.style attr }
    unfold Base.denote
    rw [h2]
    show ∃ r, (Arg.denote b true { l with style := fractionStyle l.style attr } >>= fun r2 =>
      Except.ok ((_, if binomial = true then _ else _), { r2.2 with style := l.style })) = Except.ok (r, l)
    rw [h3]
    exact ⟨_, rfl⟩
  · cases binomial with
    | false =>
      refine ⟨?_, rfl⟩
      show Tree.node _ [(a.shape labels).tree, (b.shape labels).tree] = _
      rw [ha.shape, hb.shape]
      rfl
    | true =>
      refine ⟨?_, rfl⟩
      show Tree.node _ [_, .node _ [(a.shape labels).tree, (b.shape labels).tree], _] = _
      rw [ha.shape, hb.shape]
      rfl

theorem head_root {la : List Lexeme} {ta : Tree} {a : Arg} (ha : ArgGood la ta a) :
    HeadGood (.command c!"sqrt" :: la) (.node c!"msqrt" [ta]) false bracket follows (.base (.sqrt a)) := by
  have h1 := structure_known.1
  have ht : tks (.command c!"sqrt" :: la) = ⟨.sqrt, false⟩ :: tks la := by rw [tks_cons, tok_cmd h1]; rfl
  refine ⟨fixed_cons (fixed_cmd h1) ha.fixed, ?_, ⟨_, _, ht, rfl⟩, fun _ _ => ha.ok, ha.linked, ha.tame, ha.unbroken,
    fun l p nxt => ?_, fun labels => ⟨?_, rfl⟩, rfl⟩
  · rw [ht]
    show _ :: a.tokens = _
    rw [ha.tokens]
  · obtain ⟨n, hn⟩ := ha.steady true l
    unfold Base.denote
    rw [hn]
    exact ⟨_, rfl⟩
  · show Tree.node _ [(a.shape labels).tree] = _
    rw [ha.shape]

theorem head_rootOf {la ld : List Lexeme} {ta : Tree} {td : List Tree} {a : Arg} {d : Form} (ha : ArgGood la ta a)
    (hd : TexClosed ld td true d) :
    HeadGood (.command c!"sqrt" :: .char '[' :: (ld ++ .char ']' :: la)) (.node c!"mroot" [ta, .one td]) false bracket follows
      (.base (.root d a)) := by
  have h1 := structure_known.1
  have ht : tks (.command c!"sqrt" :: .char '[' :: (ld ++ .char ']' :: la)) = ⟨.sqrt, false⟩ :: ⟨.squareBracketOpen, false⟩ ::
      (tks ld ++ ⟨.squareBracketClose, false⟩ :: tks la) := by
    rw [tks_cons, tok_cmd h1, tks_cons, tks_append]
    rfl
  refine ⟨fixed_cons (fixed_cmd h1) (fixed_cons rfl (fixed_append hd.fixed (fixed_cons rfl ha.fixed))), ?_, ⟨_, _, ht, rfl⟩,
    fun _ _ => ?_, fun M => ⟨hd.linked M, ha.linked M⟩, ?_, ?_, fun l p nxt => ?_, fun labels => ⟨?_, rfl⟩, rfl⟩
  · rw [ht]
    show _ :: _ :: d.tokens ++ _ :: a.tokens = _
    rw [ha.tokens, hd.tokens]
    rfl
  · show (d.ok true && a.ok) = true
    rw [hd.ok, ha.ok]
    rfl
  · show (d.tame false && a.tame) = true
    rw [hd.tame, ha.tame]
    rfl
  · show (d.unbroken && a.unbroken) = true
    rw [hd.unbroken, ha.unbroken]
    rfl
  · obtain ⟨ns, hn⟩ := hd.steady l .opening .closing
    obtain ⟨n, hn'⟩ := ha.steady true l
    unfold Base.denote
    rw [hn]
    show ∃ r, (Arg.denote a true l >>= fun ra => Except.ok ((_, Node.root _ ra.1), ra.2)) = Except.ok (r, l)
    rw [hn']
    exact ⟨_, rfl⟩
  · obtain ⟨e1, e2⟩ := hd.shapes labels
    show Tree.node _ [(a.shape labels).tree, (Shape.one (shapesOf (d.pieces labels))).tree] = _
    rw [ha.shape, (one_tree _ e2).1, e1]

theorem head_accent {r : AccentRow} {la : List Lexeme} {ta : Tree} {a : Arg} (h : r ∈ accentRows) (ha : ArgGood la ta a) :
    ∃ hd, HeadGood (.command r.name :: la) (ta.stacked r.over (.char r.char)) false bracket follows hd := by
  have hr := List.all_eq_true.1 accents_known r h
  split at hr
  · rename_i o isOver attrs heq
    rw [Bool.and_eq_true] at hr
    have h2 : isOver = r.over := by simpa using hr.1
    have h3 : o.asOp.sc.text = [Char.ofNat r.char] := of_decide_eq_true hr.2
    subst h2
    have ht : tks (.command r.name :: la) = ⟨.accent o r.over attrs, false⟩ :: tks la := by rw [tks_cons, tok_cmd heq]; rfl
    refine ⟨.base (.deco (.accent o r.over attrs) a), fixed_cons (fixed_cmd heq) ha.fixed, ?_, ⟨_, _, ht, rfl⟩,
      fun _ _ => ha.ok, ha.linked, ha.tame, ha.unbroken, fun l p nxt => ?_, fun labels => ⟨?_, rfl⟩, rfl⟩
    · rw [ht]
      show _ :: a.tokens = _
      rw [ha.tokens]
      rfl
    · obtain ⟨n, hn⟩ := ha.steady (Deco.reset (.accent o r.over attrs)) l
      unfold Base.denote
      rw [hn]
      exact ⟨_, rfl⟩
    · show Tree.node _ [(a.shape labels).tree, .sym o.asOp.sc.text] = _
      rw [ha.shape, h3]
      rfl
  · cases hr

theorem brace_known {r : AccentRow} (h : r ∈ braceRows) :
    ∃ x : OrdLike, fixedTok r.name = some (.overUnderBrace x r.over) ∧ x.asOp.sc.text = [Char.ofNat r.char] := by
  have hr := List.all_eq_true.1 braces_known r h
  split at hr
  · rename_i x isOver heq
    rw [Bool.and_eq_true] at hr
    have h2 : isOver = r.over := by simpa using hr.1
    subst h2
    exact ⟨x, heq, of_decide_eq_true hr.2⟩
  · cases hr

theorem head_brace {r : AccentRow} {la : List Lexeme} {ta : Tree} {a : Arg} (h : r ∈ braceRows) (ha : ArgGood la ta a)
    (hf : ∀ ts, follows ts → headNot startsScript ts = true) :
    ∃ hd, HeadGood (.command r.name :: la) (ta.stacked r.over (.char r.char)) false bracket follows hd := by
  obtain ⟨x, h1, h3⟩ := brace_known h
  have ht : tks (.command r.name :: la) = ⟨.overUnderBrace x r.over, false⟩ :: tks la := by rw [tks_cons, tok_cmd h1]; rfl
  refine ⟨.base (.brace x r.over a), fixed_cons (fixed_cmd h1) ha.fixed, ?_, ⟨_, _, ht, rfl⟩,
    fun after hafter => ?_, ha.linked, ha.tame, ha.unbroken, fun l p nxt => ?_, fun labels => ⟨?_, rfl⟩, rfl⟩
  · rw [ht]
    show _ :: a.tokens = _
    rw [ha.tokens]
  · show (a.ok && headNot (startsLabel r.over) after) = true
    rw [ha.ok, headNot_mono (label_script r.over) (hf after hafter)]
    rfl
  · obtain ⟨n, hn⟩ := ha.steady false l
    unfold Base.denote
    rw [hn]
    exact ⟨_, rfl⟩
  · show Tree.node _ [(a.shape labels).tree, .sym x.asOp.sc.text] = _
    rw [ha.shape, h3]
    rfl

theorem head_labelled {r : AccentRow} {la lb : List Lexeme} {ta tb : Tree} {a b : Arg} (h : r ∈ braceRows)
    (ha : ArgGood la ta a) (hb : ArgGood lb tb b) :
    ∃ hd, HeadGood (.command r.name :: (la ++ .char (if r.over then '^' else '_') :: lb))
      ((ta.stacked r.over (.char r.char)).stacked r.over tb) false bracket follows hd := by
  obtain ⟨x, h1, h3⟩ := brace_known h
  have hl : (Lexeme.char (if r.over then '^' else '_')).tok = if r.over then .circumflex else .underscore := by
    cases r.over <;> rfl
  have ht : tks (.command r.name :: (la ++ .char (if r.over then '^' else '_') :: lb)) = ⟨.overUnderBrace x r.over, false⟩ ::
      (tks la ++ ⟨if r.over then .circumflex else .underscore, false⟩ :: tks lb) := by
    rw [tks_cons, tok_cmd h1, tks_append, tks_cons, hl]
    rfl
  refine ⟨.base (.braceLabel x r.over a b), fixed_cons (fixed_cmd h1) (fixed_append ha.fixed (fixed_cons rfl hb.fixed)), ?_,
    ⟨_, _, ht, rfl⟩, fun _ _ => ?_, fun M => ⟨ha.linked M, hb.linked M⟩, ?_, ?_, fun l p nxt => ?_, fun labels => ⟨?_, rfl⟩, rfl⟩
  · rw [ht]
    show _ :: a.tokens ++ _ :: b.tokens = _
    rw [ha.tokens, hb.tokens]
    rfl
  · show (a.ok && b.ok) = true
    rw [ha.ok, hb.ok]
    rfl
  · show (a.tame && b.tame) = true
    rw [ha.tame, hb.tame]
    rfl
  · show (a.unbroken && b.unbroken) = true
    rw [ha.unbroken, hb.unbroken]
    rfl
  · obtain ⟨n, hn⟩ := ha.steady false l
    obtain ⟨n', hn'⟩ := hb.steady true l
    unfold Base.denote
    rw [hn]
    dsimp only [bind, Except.bind]
    rw [hn']
    exact ⟨_, rfl⟩
  · show Tree.node _ [.node _ [(a.shape labels).tree, .sym x.asOp.sc.text], (b.shape labels).tree] = _
    rw [ha.shape, hb.shape, h3]
    rfl

theorem alone_of_ok {t : Token} (h : (Arg.tok t).ok = true) : isAlone t = true := by
  unfold Arg.ok at h
  unfold isAlone
  split at h
  · rename_i e
    rw [e]
  · cases h
  · split
    · rfl
    · exact h

theorem head_stack {over : Bool} {la lb : List Lexeme} {ta tb : Tree} {a b : Arg} (ha : ArgGood la ta a)
    (hb : ArgGood lb tb b) :
    ∃ hd, HeadGood (.command (if over then c!"overset" else c!"underset") :: (la ++ lb)) (tb.stacked over ta) false bracket
      follows hd := by
  have h1 : fixedTok (if over then c!"overset" else c!"underset") = some (if over then .overset else .underset) := by
    cases over with
    | true => exact structure_known.2.2.2.1
    | false => exact structure_known.2.2.2.2.1
  have ht : tks (.command (if over then c!"overset" else c!"underset") :: (la ++ lb)) =
      ⟨if over then .overset else .underset, false⟩ :: (tks la ++ tks lb) := by
    rw [tks_cons, tok_cmd h1, tks_append]
    rfl
  have hfix : ∀ l ∈ (Lexeme.command (if over then c!"overset" else c!"underset") :: (la ++ lb)), l.fixed = true :=
    fixed_cons (fixed_cmd h1) (fixed_append ha.fixed hb.fixed)
  have hfirst : ∃ t ts, tks (.command (if over then c!"overset" else c!"underset") :: (la ++ lb)) = ⟨t, false⟩ :: ts ∧
      startsScript t = false := ⟨_, _, ht, by cases over <;> rfl⟩
  cases b with
  | tok t =>
    refine ⟨.base (.stackTok over a t), hfix, ?_, hfirst, fun _ _ => ?_, ha.linked, ha.tame, ha.unbroken, fun l p nxt => ?_,
      fun labels => ⟨?_, rfl⟩, rfl⟩
    · rw [ht]
      show _ :: a.tokens ++ Arg.tokens (.tok t) = _
      rw [ha.tokens, hb.tokens]
      rfl
    · show (a.ok && isAlone t) = true
      rw [ha.ok, alone_of_ok hb.ok]
      rfl
    · obtain ⟨n, hn⟩ := ha.steady true { l with style := .script }
      unfold Base.denote
      rw [hn]
      exact ⟨_, rfl⟩
    · show Tree.node _ [(aloneShape t).tree, (a.shape labels).tree] = _
      rw [ha.shape, show (aloneShape t).tree = tb from hb.shape labels]
      rfl
  | braces f =>
    refine ⟨.base (.stackGroup over a f), hfix, ?_, hfirst, fun _ _ => ?_, fun M => ⟨ha.linked M, hb.linked M⟩, ?_, ?_,
      fun l p nxt => ?_, fun labels => ⟨?_, rfl⟩, rfl⟩
    · rw [ht, ← hb.tokens]
      show _ :: a.tokens ++ _ :: f.tokens ++ _ = _
      rw [ha.tokens]
      show _ = _ :: (tks la ++ (_ :: f.tokens ++ _))
      simp
    · show (a.ok && f.ok false) = true
      rw [ha.ok, show f.ok false = true from hb.ok]
      rfl
    · show (a.tame && f.tame false) = true
      rw [ha.tame, show f.tame false = true from hb.tame]
      rfl
    · show (a.unbroken && f.unbroken) = true
      rw [ha.unbroken, show f.unbroken = true from hb.unbroken]
      rfl
    · obtain ⟨n, hn⟩ := ha.steady true { l with style := .script }
      obtain ⟨ns, hn'⟩ := hb.inner f rfl { l with stacked := true } p .ending
      unfold Base.denote
      rw [hn]
      show ∃ r, (Form.denote f { l with stacked := true } p .ending >>= fun rf =>
        Except.ok ((_, stackNode over n (nodeVecToNode rf.1 false)), { rf.2 with style := l.style, stacked := l.stacked })) =
          Except.ok (r, l)
      rw [hn']
      exact ⟨_, rfl⟩
    · show Tree.node _ [(Shape.one (shapesOf (f.pieces labels))).tree, (a.shape labels).tree] = _
      rw [ha.shape, show (Shape.one (shapesOf (f.pieces labels))).tree = tb from hb.shape labels]
      rfl

/-- What is known about a delimiter -/
theorem delims_loose : delimRows.all (fun d => !d.written.tight) = true := by decide +kernel

theorem delim_loose {d : DelimRow} (h : d ∈ delimRows) : d.written.tight = false := by
  simpa using List.all_eq_true.1 delims_loose d h

theorem delim_known {d : DelimRow} (h : d ∈ delimRows) : d.written.fixed = true ∧
    (Named d.written.tok.unwrapMath && !d.written.tok.isWs) = true ∧
    (∀ loc, ∃ o, fenceDelim loc d.written.tok.unwrapMath = .ok o) ∧
    (delimShape (tokenDelim d.written.tok.unwrapMath)).tree = .char d.shown := by
  have hr := List.all_eq_true.1 delims_known d h
  unfold delimRight at hr
  dsimp only at hr
  simp only [Bool.and_eq_true] at hr
  obtain ⟨⟨⟨⟨h1, h2⟩, h3⟩, h4⟩, h5⟩ := hr
  refine ⟨h1, by rw [h2, h3]; rfl, fun loc => ?_, ?_⟩
  · unfold fenceDelim
    split
    · exact ⟨_, rfl⟩
    · rename_i hn
      rw [Bool.or_eq_true] at h4
      rcases h4 with h4 | h4
      · exact absurd h4 hn
      · obtain ⟨d, hd⟩ := Option.isSome_iff_exists.1 h4
        rw [hd]
        exact ⟨_, rfl⟩
  · split at h5
    · rename_i c heq
      rw [heq]
      show Tree.sym c.text = _
      rw [show c.text = [Char.ofNat d.shown] from of_decide_eq_true h5]
      rfl
    · cases h5

theorem trees_append (a b : List Shape) : Shape.trees (a ++ b) = Shape.trees a ++ Shape.trees b := by
  induction a with
  | nil => rfl
  | cons s a ih => exact congrArg (s.tree :: ·) ih

theorem head_fence {l r : DelimRow} {ls : List Lexeme} {ts : List Tree} {f : Form} (hl : l ∈ delimRows) (hr : r ∈ delimRows)
    (hf : TexClosed ls ts false f) :
    HeadGood (.command c!"left" :: l.written :: (ls ++ [.command c!"right", r.written]))
      (.node c!"mrow" (.char l.shown :: ts ++ [.char r.shown])) false bracket follows
      (.base (.fence l.written.tok r.written.tok f)) := by
  have k1 := structure_known.2.1
  have k2 := structure_known.2.2.1
  obtain ⟨l1, l2, l3, l4⟩ := delim_known hl
  obtain ⟨r1, r2, r3, r4⟩ := delim_known hr
  have ht : tks (.command c!"left" :: l.written :: (ls ++ [.command c!"right", r.written])) = ⟨.left, false⟩ ::
      ⟨l.written.tok, false⟩ :: (tks ls ++ [⟨.right, false⟩, ⟨r.written.tok, false⟩]) := by
    rw [tks_cons, tok_cmd k1, tks_cons, tks_append, tks_cons, tok_cmd k2, delim_loose hl]
    show _ :: _ :: (_ ++ [_, (⟨_, r.written.tight⟩ : Tk)]) = _
    rw [delim_loose hr]
    rfl
  refine ⟨fixed_cons (fixed_cmd k1) (fixed_cons l1 (fixed_append hf.fixed (fixed_cons (fixed_cmd k2) (fixed_one r1)))), ?_,
    ⟨_, _, ht, rfl⟩, fun _ _ => ?_, hf.linked, hf.tame false, hf.unbroken, fun loc p nxt => ?_, fun labels => ⟨?_, rfl⟩, rfl⟩
  · rw [ht]
    show _ :: _ :: f.tokens ++ _ = _
    rw [hf.tokens]
    rfl
  · show (Named _ && _ && Named _ && _ && f.ok false) = true
    rw [Bool.and_eq_true] at l2 r2
    rw [l2.1, l2.2, r2.1, r2.2, hf.ok]
    rfl
  · obtain ⟨o1, h1⟩ := l3 .left
    obtain ⟨o2, h2⟩ := r3 .right
    obtain ⟨ns, hn⟩ := hf.steady loc .opening .closing
    unfold Base.denote
    rw [h1]
    show ∃ x, (Form.denote f loc .opening .closing >>= fun r' => fenceDelim .right r.written.tok.unwrapMath >>= fun closing =>
      Except.ok ((_, fenced r'.1 o1 closing none), { r'.2 with style := loc.style })) = Except.ok (x, loc)
    rw [hn]
    show ∃ x, (fenceDelim .right r.written.tok.unwrapMath >>= fun closing =>
      Except.ok ((_, fenced ns o1 closing none), loc)) = Except.ok (x, loc)
    rw [h2]
    exact ⟨_, rfl⟩
  · obtain ⟨e1, -⟩ := hf.shapes labels
    show Tree.node _ (_ :: Shape.trees (shapesOf (f.pieces labels) ++ [_])) = _
    rw [trees_append, e1, l4]
    show Tree.node _ (_ :: (ts ++ [Shape.tree _])) = _
    rw [r4]
    rfl

theorem head_space {name : Str} (h : name ∈ spaceNames) :
    ∃ hd, HeadGood [.command name] (.leaf c!"mspace" []) false bracket follows hd := by
  have hr := List.all_eq_true.1 spaces_known name h
  have key : ∃ t x, fixedTok name = some t ∧ t.unwrapMath = .space x := by
    split at hr
    · rename_i x heq
      exact ⟨_, x, heq, rfl⟩
    · rename_i x c heq
      exact ⟨_, x, heq, rfl⟩
    · cases hr
  obtain ⟨t, x, h1, h2⟩ := key
  have ht : tks [.command name] = [⟨t, false⟩] := by
    rw [tks_cons, tok_cmd h1]
    rfl
  have hb : (Base.atom t).ok bracket [] = true := by
    show (isAtom t.unwrapMath && !(bracket && _)) = true
    rw [h2]
    cases t <;> first | rfl | (cases bracket <;> first | rfl | cases h2) 
  refine ⟨.base (.atom t), fixed_one (fixed_cmd h1), ht.symm, ⟨t, [], ht, ?_⟩, fun _ _ => hb, fun _ => trivial, rfl, rfl,
    fun l p nxt => ⟨_, rfl⟩, fun _ => ?_, rfl⟩
  · unfold startsScript
    rw [h2]
    rfl
  · show (atomShape t.unwrapMath).tree = _ ∧ preScripted (atomShape t.unwrapMath) = _
    rw [h2]
    exact ⟨rfl, rfl⟩

theorem head_font {r : FontRow} {c : Char} (h : r ∈ fontRows) (hc : isAsciiAlpha c = true)
    (hI : (r.capitalA == 0x1d504 && c == 'I') = false) :
    ∃ hd, HeadGood (.command r.name :: braced [.char c]) (.sym (r.shown c)) false bracket follows hd := by
  have hr := List.all_eq_true.1 fonts_known r h
  split at hr
  · rename_i tf heq
    have hr := List.all_eq_true.1 hr _ (List.mem_range.2 (ascii_of_alpha hc))
    rw [Char.ofNat_toNat, hc, hI] at hr
    simp only [Bool.not_true, Bool.false_or] at hr
    split at hr
    · rename_i s hs
      have hr : s.text = r.shown c := of_decide_eq_true hr
      have hw : fontWord tf [Lexer.charToken c] = some [s] := by
        show (fontChar tf _ >>= _) = _
        rw [hs]
        rfl
      have ht : tks (.command r.name :: braced [.char c]) = ⟨.transform tf, false⟩ :: ⟨.groupBegin, false⟩ ::
          ⟨Lexer.charToken c, false⟩ :: [⟨.groupEnd, false⟩] := by
        rw [tks_cons, tok_cmd heq, tks_braces]
        rfl
      refine ⟨.base (.leaf (.font tf [Lexer.charToken c])), fixed_cons (fixed_cmd heq) (fixed_braces (fixed_one rfl)), ht.symm,
        ⟨_, _, ht, rfl⟩, fun _ _ => ?_, fun _ => trivial, rfl, rfl, fun l p nxt => ⟨_, rfl⟩, fun _ => ?_, rfl⟩
      · show Leaf.ok (.font tf [Lexer.charToken c]) = true
        simp only [Leaf.ok, hw]
        rfl
      · show (wordShape tf ((fontWord tf _).getD [])).tree = _ ∧ preScripted (wordShape tf ((fontWord tf _).getD [])) = _
        rw [hw]
        refine ⟨?_, rfl⟩
        show Tree.sym s.text = _
        rw [hr]
    · cases hr
  · cases hr

/-! ### Tables -/

/-- The cells of a table -/
def rowTrees (rows : List (List (List Shape))) : List (List (List Tree)) := rows.map fun cells => cells.map Shape.trees

/-- A table which is right -/
structure TableGood (ls : List Lexeme) (rows : List (List (List Tree))) (columns : Bool) (f : Form) : Prop where
  fixed : ∀ l ∈ ls, l.fixed = true
  tokens : f.tokens = tks ls
  ok : f.ok false = true
  linked : ∀ M, f.linked M
  tame : f.tame true = true
  unbroken : f.unbroken = true
  steady : ∀ l, l.env.numbered = none → (columns = true → l.env.allowColumns = true) → ∀ nxt p,
    ∃ ns, f.denote l p nxt = .ok (ns, l)
  rows : ∀ labels, ∃ cell cells rest, rowsOfPieces (f.pieces labels) = (cell :: cells) :: rest ∧
    rowTrees (rowsOfPieces (f.pieces labels)) = rows

theorem rows_shapes (ss : List Shape) (ps : List ShapePiece) {cell : List Shape} {cells : List (List Shape)}
    {rest : List (List (List Shape))} (h : rowsOfPieces ps = (cell :: cells) :: rest) :
    rowsOfPieces (ss.map .shape ++ ps) = ((ss ++ cell) :: cells) :: rest := by
  induction ss with
  | nil => exact h
  | cons s ss ih =>
    show rowsOfPieces (.shape s :: (ss.map .shape ++ ps)) = _
    unfold rowsOfPieces
    rw [ih]
    rfl

theorem table_last {ls : List Lexeme} {ts : List Tree} {columns : Bool} {f : Form} (h : Extends ls ts false .nil f) :
    TableGood ls [[ts]] columns f := by
  have hc := h.closed
  refine ⟨hc.fixed, hc.tokens, hc.ok, hc.linked, hc.tame true, hc.unbroken, fun l _ _ nxt p => hc.steady l p nxt,
    fun labels => ?_⟩
  obtain ⟨ss, e1, e2, -⟩ := h.pieces labels
  have hr := rows_shapes ss ((Form.nil).pieces labels) (cell := []) (cells := []) (rest := []) rfl
  rw [e1, hr]
  refine ⟨_, _, _, rfl, ?_⟩
  show [[Shape.trees (ss ++ [])]] = _
  rw [List.append_nil, e2]

theorem stops_amp (k : Form) : stops (.amp k) := ⟨rfl, rfl⟩
theorem stops_newLine (k : Form) : stops (.newLine none k) := ⟨rfl, rfl⟩

theorem table_amp {ls lr : List Lexeme} {ts : List Tree} {row : List (List Tree)} {rows : List (List (List Tree))}
    {f k : Form} (hk : TableGood lr (row :: rows) true k) (h : Extends ls ts false (.amp k) f) :
    TableGood (ls ++ .char '&' :: lr) ((ts :: row) :: rows) true f := by
  refine ⟨fixed_append h.fixed (fixed_cons rfl hk.fixed), ?_, h.ok hk.ok, fun M => h.linked M (hk.linked M), h.tame true ?_,
    h.unbroken hk.unbroken, fun l h1 h2 nxt => h.steady l l nxt fun p => ?_, fun labels => ?_⟩
  · rw [h.tokens, tks_append]
    show _ ++ _ :: k.tokens = _
    rw [hk.tokens]
    rfl
  · show (true && k.tame true) = true
    rw [hk.tame]
    rfl
  · obtain ⟨ns, hn⟩ := hk.steady l h1 h2 nxt .closing
    unfold Form.denote
    rw [h2 rfl, hn]
    exact ⟨_, rfl⟩
  · obtain ⟨ss, e1, e2, -⟩ := h.pieces labels
    obtain ⟨cell, cells, rest, k1, k2⟩ := hk.rows labels
    have hr : rowsOfPieces ((Form.amp k).pieces labels) = ([] :: cell :: cells) :: rest := by
      show rowsOfPieces (.nextCell :: k.pieces labels) = _
      unfold rowsOfPieces
      rw [k1]
    have hr := rows_shapes ss _ hr
    rw [e1, hr]
    refine ⟨_, _, _, rfl, ?_⟩
    rw [k1] at k2
    have k3 : (cell :: cells).map Shape.trees = row ∧ rowTrees rest = rows := by
      have : (cell :: cells).map Shape.trees :: rowTrees rest = row :: rows := k2
      exact List.cons.inj this
    show (Shape.trees (ss ++ []) :: (cell :: cells).map Shape.trees) :: rowTrees rest = _
    rw [List.append_nil, e2, k3.1, k3.2]

theorem table_newRow {ls lr : List Lexeme} {ts : List Tree} {rows : List (List (List Tree))} {columns : Bool}
    {f k : Form} (hk : TableGood lr rows columns k) (h : Extends ls ts false (.newLine none k) f) :
    TableGood (ls ++ .command c!"\\" :: lr) ([ts] :: rows) columns f := by
  have hc := structure_known.2.2.2.2.2.2
  refine ⟨fixed_append h.fixed (fixed_cons (fixed_cmd hc) hk.fixed), ?_, h.ok hk.ok, fun M => h.linked M (hk.linked M),
    h.tame true ?_, h.unbroken hk.unbroken, fun l h1 h2 nxt => h.steady l l nxt fun p => ?_, fun labels => ?_⟩
  · rw [h.tokens, tks_append, tks_cons, tok_cmd hc]
    show _ ++ _ :: k.tokens = _
    rw [hk.tokens]
    rfl
  · show (true && k.tame true) = true
    rw [hk.tame]
    rfl
  · have hn : ∃ r, nextRow none l = .ok (r, l) := by
      show ∃ r, lineBreak none l = .ok (r, l)
      unfold lineBreak
      split
      · exact ⟨_, rfl⟩
      · rw [h1]
        exact ⟨_, rfl⟩
    obtain ⟨r, hr⟩ := hn
    obtain ⟨ns, hn⟩ := hk.steady l h1 h2 nxt r.1
    unfold Form.denote
    rw [hr]
    show ∃ ns', (Form.denote k l r.1 nxt >>= fun rr => Except.ok (r.2 :: rr.1, rr.2)) = Except.ok (ns', l)
    rw [hn]
    exact ⟨_, rfl⟩
  · obtain ⟨ss, e1, e2, -⟩ := h.pieces labels
    obtain ⟨cell, cells, rest, k1, k2⟩ := hk.rows labels
    have hr : rowsOfPieces ((Form.newLine none k).pieces labels) = [[]] :: rowsOfPieces (k.pieces labels) := rfl
    have hr := rows_shapes ss _ hr
    rw [e1, hr]
    refine ⟨_, _, _, rfl, ?_⟩
    show [Shape.trees (ss ++ [])] :: rowTrees (rowsOfPieces (k.pieces labels)) = _
    rw [List.append_nil, e2, k2]

theorem cells_tree {columns : List ColumnSpecEntry} (hc : ∀ j, (column columns j).1 = []) (j : Nat) (cells : List (List Shape)) :
    Shape.trees (cellShapes columns j cells) = (cells.map Shape.trees).map (.node c!"mtd" ·) := by
  induction cells generalizing j with
  | nil => rfl
  | cons c cs ih =>
    show Shape.trees (List.map _ (column columns j).1 ++ _ :: cellShapes columns (j + 1) cs) = _
    rw [hc]
    show Tree.node _ (Shape.trees c) :: Shape.trees (cellShapes columns (j + 1) cs) = _
    rw [ih]
    rfl

theorem table_tree {columns : List ColumnSpecEntry} (hc : ∀ j, (column columns j).1 = []) (ps : List ShapePiece) :
    (tableShape columns ps).tree = tableTree false (rowTrees (rowsOfPieces ps)) := by
  unfold tableShape tableTree
  show Tree.node _ (Shape.trees _) = _
  congr 1
  unfold rowTrees
  induction rowsOfPieces ps with
  | nil => rfl
  | cons row rows ih =>
    show Tree.node _ (Shape.trees (cellShapes columns 0 row)) :: Shape.trees _ = _
    rw [cells_tree hc, ih]
    rfl

theorem numbered_tree (ps : List ShapePiece) : (numberedShape ps).tree = tableTree true (rowTrees (rowsOfPieces ps)) := by
  unfold numberedShape tableTree
  show Tree.node _ (Shape.trees _) = _
  congr 1
  unfold rowTrees
  induction rowsOfPieces ps with
  | nil => rfl
  | cons row rows ih =>
    show Tree.node _ (Tree.node _ [] :: Shape.trees (cellShapes [] 0 row ++ _)) :: Shape.trees _ = _
    rw [trees_append, cells_tree (fun _ => rfl), ih]
    rfl

/-- The node of an environment without arguments -/
theorem construct_some (e : Env) (h : noSpec e = true) (content : List Node) :
    ∃ n, e.constructNode content none none none none = some n := by
  cases e <;> first | exact ⟨_, rfl⟩ | cases h

/-- The node of an array -/
theorem construct_array (e : Env) (h : noSpec e = false) (s : ArraySpec) (content : List Node) :
    ∃ n, e.constructNode content (some s) none none none = some n := by
  cases e <;> first | exact ⟨_, rfl⟩ | cases h

/-- What is known about an environment -/
theorem env_known {r : TableRow} (h : r ∈ tableRows) : ∃ e, Env.fromStr r.name = some e ∧ noSpec e = true ∧
    envNumbering e = none ∧ envColumns e = r.columns ∧ delimsRight r e = true ∧ envRows e = true := by
  have hr := List.all_eq_true.1 tables_known r h
  split at hr
  · rename_i e heq
    simp only [Bool.and_eq_true, Option.isNone_iff_eq_none, beq_iff_eq] at hr
    exact ⟨e, heq, hr.1.1.1.1, hr.1.1.1.2, hr.1.1.2, hr.1.2, hr.2⟩
  · cases hr

theorem given_none {e : Env} (h : noSpec e = true) : givenColumns e {} = [] := by
  cases e <;> first | rfl | cases h

/-- A table, with delimiters -/
def Spec.TableRow.tree (r : TableRow) (rows : List (List (List Tree))) : Tree :=
  let table := tableTree false rows
  match r.left, r.right with
  | some l, some r => .node c!"mrow" [.char l, table, .char r]
  | _, _ => table

theorem env_tree {r : TableRow} {e : Env} (h : noSpec e = true) (hn : envNumbering e = none)
    (hd : delimsRight r e = true) (ps : List ShapePiece) :
    (envShape e {} ps).tree = r.tree (rowTrees (rowsOfPieces ps)) ∧ preScripted (envShape e {} ps) = false := by
  have ht : (if (envNumbering e).isSome then numberedShape ps else tableShape (givenColumns e {}) ps).tree =
      tableTree false (rowTrees (rowsOfPieces ps)) ∧
      preScripted (if (envNumbering e).isSome then numberedShape ps else tableShape (givenColumns e {}) ps) = false := by
    rw [given_none h, hn]
    exact ⟨table_tree (fun _ => rfl) ps, rfl⟩
  unfold delimsRight at hd
  unfold envShape Spec.TableRow.tree
  dsimp only
  split at hd
  · rename_i h1 h2 h3
    rw [h1, h2, h3]
    exact ht
  · rename_i l r1 l' r' h1 h2 h3
    rw [h1, h2, h3]
    rw [Bool.and_eq_true] at hd
    refine ⟨?_, rfl⟩
    have key : ∀ {d : Option StretchableOp} {n : Nat}, (match delimShape d with | .op c => showsNat c n | _ => false) = true →
        (delimShape d).tree = .char n := by
      intro d n hd
      split at hd
      · rename_i c heq
        rw [heq]
        show Tree.sym c.text = _
        rw [show c.text = [Char.ofNat n] from of_decide_eq_true hd]
        rfl
      · cases hd
    show Tree.node _ [(delimShape l).tree, (if (envNumbering e).isSome then numberedShape ps else tableShape (givenColumns e {}) ps).tree,
      (delimShape r1).tree] = _
    rw [key hd.1, key hd.2, ht.1]
  · cases hd

/-- An environment, with its arguments -/
theorem head_env {name : Str} {e : Env} {o : EnvArgs} {lo ls : List Lexeme} {rows : List (List (List Tree))} {f : Form} {t : Tree}
    {spec : Option ArraySpec} (h1 : Env.fromStr name = some e) (hf : TableGood ls rows (envColumns e) f) (hrows : envRows e = true)
    (hok : o.ok e = true) (hfix : ∀ l ∈ lo, l.fixed = true) (htk : o.tokens = tks lo) (hspec : o.columns e = .ok spec)
    (hline : o.line = none)
    (hcon : ∀ ns, ∃ n, e.constructNode ns spec none none none = some n)
    (hnum : envNumbering e = none)
    (htree : ∀ ps, (envShape e o ps).tree = t ∨ rowTrees (rowsOfPieces ps) ≠ rows)
    (hpre : ∀ ps, preScripted (envShape e o ps) = false) :
    ∃ hd, HeadGood (.opens name :: (lo ++ (ls ++ [.closes name]))) t false bracket follows hd := by
  have ht : tks (.opens name :: (lo ++ (ls ++ [.closes name]))) = ⟨.beginEnv e, false⟩ :: (tks lo ++ (tks ls ++ [⟨.endEnv e, false⟩])) := by
    rw [tks_cons, tks_append, tks_append]
    show (⟨.beginEnv ((Env.fromStr name).getD .matrix), false⟩ : Tk) :: (tks lo ++ (tks ls ++ [⟨.endEnv ((Env.fromStr name).getD .matrix), false⟩])) = _
    rw [h1]
    rfl
  have hx : (Lexeme.opens name).fixed = true ∧ (Lexeme.closes name).fixed = true := by
    have : (Env.fromStr name).isSome = true := by rw [h1]; rfl
    exact ⟨this, this⟩
  have hu : (envState e).numbered = none := by
    show (envNumbering e).map _ = none
    rw [hnum]
    rfl
  refine ⟨.base (.env e e o f), fixed_cons hx.1 (fixed_append hfix (fixed_append hf.fixed (fixed_one hx.2))), ?_, ⟨_, _, ht, rfl⟩,
    fun _ _ => ?_, hf.linked, hf.tame, ?_, fun l p nxt => ?_, fun labels => ?_, rfl⟩
  · rw [ht]
    show _ :: o.tokens ++ f.tokens ++ _ = _
    rw [hf.tokens, htk]
    simp only [List.cons_append, List.append_assoc]
  · show (o.ok e && f.ok false) = true
    rw [hok, hf.ok]
    rfl
  · show ((envRows e || f.tame false) && f.unbroken) = true
    rw [hf.unbroken, hrows]
    rfl
  · obtain ⟨ns, hn⟩ := hf.steady { l with style := envStyle e, env := envState e } hu id .ending .opening
    obtain ⟨n, hc⟩ := hcon ns
    refine ⟨(.closing, n), ?_⟩
    unfold Base.denote
    rw [hspec]
    show (Form.denote f _ _ _ >>= fun r' => endEnv e e spec o.line r'.1 l r'.2) = _
    rw [hn, hline]
    show endEnv e e spec none ns l { l with style := envStyle e, env := envState e } = _
    unfold endEnv
    rw [if_neg (fun h => h rfl)]
    dsimp only
    rw [hu]
    dsimp only
    rw [hc]
  · obtain ⟨cell, cells, rest, -, k2⟩ := hf.rows labels
    refine ⟨?_, hpre _⟩
    rcases htree (f.pieces labels) with h | h
    · exact h
    · exact absurd k2 h

theorem head_table {r : TableRow} {ls : List Lexeme} {rows : List (List (List Tree))} {f : Form} (h : r ∈ tableRows)
    (hf : TableGood ls rows r.columns f) :
    ∃ hd, HeadGood (.opens r.name :: (ls ++ [.closes r.name])) (r.tree rows) false bracket follows hd := by
  obtain ⟨e, h1, h2, h3, h4, h5, h6⟩ := env_known h
  rw [← h4] at hf
  refine head_env (lo := []) (o := {}) (spec := none) h1 hf h6 ?_ nofun rfl rfl rfl (construct_some e h2) h3 (fun ps => ?_)
    fun ps => (env_tree h2 h3 h5 ps).2
  · show (noSpec e && true) = true
    rw [h2]
    rfl
  · by_cases hp : rowTrees (rowsOfPieces ps) = rows
    · exact .inl (by rw [(env_tree h2 h3 h5 ps).1, hp])
    · exact .inr hp

/-! ### Arrays -/

/-- Columns with content -/
def allContent (cs : List ColumnSpecEntry) : Bool := cs.all fun c => match c with
  | .withContent _ _ => true
  | .onlyLine _ => false

theorem content_column {cs : List ColumnSpecEntry} (h : allContent cs = true) : ∀ j, (column cs j).1 = [] := by
  induction cs with
  | nil => exact fun _ => rfl
  | cons c cs ih =>
    unfold allContent at h
    rw [List.all_cons, Bool.and_eq_true] at h
    intro j
    cases c with
    | onlyLine _ => cases h.1
    | withContent a b =>
      cases j with
      | zero => rfl
      | succ j => exact ih h.2 j

/-- A line can come next. -/
def takesLine (st : ColState) : Prop :=
  (∃ a rest, st.revSpec = .withContent a none :: rest) ∨ (st.revSpec = [] ∧ st.borderLeft = none)

theorem column_loop : (s : Str) → (∀ c ∈ s, c ∈ c!"lcr|") → isColumns.singleLines s = true → ∀ st : ColState,
    allContent st.revSpec = true → (s.head? = some '|' → takesLine st) → (st.hasContent = true → st.revSpec ≠ []) →
    ∃ st', colLoop s st = some st' ∧ allContent st'.revSpec = true ∧ (st'.hasContent = true → st'.revSpec ≠ []) ∧
      (st.hasContent = true ∨ (∃ c ∈ s, c ∈ c!"lcr") → st'.hasContent = true)
  | [], _, _, st, h1, _, h3 => ⟨st, rfl, h1, h3, fun h => by
      rcases h with h | ⟨c, hc, _⟩
      · exact h
      · cases hc⟩
  | c :: s, hs, hl, st, h1, h2, h3 => by
    have hl' : isColumns.singleLines s = true ∧ (c = '|' → s.head? ≠ some '|') := by
      unfold isColumns.singleLines at hl
      split at hl
      · cases hl
      · rename_i hn e
        cases e
        exact ⟨hl, fun e1 e2 => by
          cases s with
          | nil => cases e2
          | cons d s => injection e2 with e2; exact hn s e1 (by rw [e2])⟩
      · rename_i e
        cases e
    have hs' : ∀ d ∈ s, d ∈ c!"lcr|" := fun d hd => hs d (List.mem_cons_of_mem _ hd)
    have letter : ∀ a : ColumnAlignment, colStep st c = some { st with revSpec := .withContent a none :: st.revSpec, hasContent := true } →
        ∃ st', colLoop (c :: s) st = some st' ∧ allContent st'.revSpec = true ∧ (st'.hasContent = true → st'.revSpec ≠ []) ∧
          (st.hasContent = true ∨ (∃ d ∈ c :: s, d ∈ c!"lcr") → st'.hasContent = true) := by
      intro a ha
      obtain ⟨st', k1, k2, k3, k4⟩ := column_loop s hs' hl'.1 { st with revSpec := .withContent a none :: st.revSpec, hasContent := true }
        h1 (fun _ => .inl ⟨_, _, rfl⟩) nofun
      refine ⟨st', ?_, k2, k3, fun _ => k4 (.inl rfl)⟩
      unfold colLoop
      rw [ha]
      exact k1
    have hc := hs c List.mem_cons_self
    simp only [List.mem_cons, List.not_mem_nil, or_false] at hc
    rcases hc with rfl | rfl | rfl | rfl
    · exact letter .left rfl
    · exact letter .center rfl
    · exact letter .right rfl
    · have other : ∀ st1 : ColState, colStep st '|' = some st1 → st1.hasContent = st.hasContent → allContent st1.revSpec = true →
          (st1.hasContent = true → st1.revSpec ≠ []) → ∃ st', colLoop ('|' :: s) st = some st' ∧ allContent st'.revSpec = true ∧ (st'.hasContent = true → st'.revSpec ≠ []) ∧
          (st.hasContent = true ∨ (∃ d ∈ '|' :: s, d ∈ c!"lcr") → st'.hasContent = true) := by
        intro st1 k1 k2 k3 k4
        obtain ⟨st', e1, e2, e3, e4⟩ := column_loop s hs' hl'.1 st1 k3 (fun e => absurd e (hl'.2 rfl)) k4
        refine ⟨st', ?_, e2, e3, fun h => e4 ?_⟩
        · unfold colLoop
          rw [k1]
          exact e1
        · rw [k2]
          rcases h with h | ⟨d, hd, hm⟩
          · exact .inl h
          · rcases List.mem_cons.1 hd with rfl | hd
            · exact absurd hm (by decide)
            · exact .inr ⟨d, hd, hm⟩
      obtain ⟨revSpec, borderLeft, hasContent⟩ := st
      rcases h2 rfl with ⟨a, rest, e⟩ | ⟨e1, e2⟩
      · cases e
        exact other _ rfl rfl h1 nofun
      · cases e1
        cases e2
        exact other _ rfl rfl rfl h3

theorem columns_known {s : Str} (h : isColumns s = true) : ∃ x, parseColumnSpecification s = some x ∧ allContent x.columns = true := by
  unfold isColumns at h
  simp only [Bool.and_eq_true] at h
  obtain ⟨st, k1, k2, k3, k4⟩ := column_loop s (fun c hc => of_decide_eq_true (List.all_eq_true.1 h.1.1 c hc)) h.2 ⟨[], none, false⟩ rfl
    (fun _ => .inr ⟨rfl, rfl⟩) nofun
  obtain ⟨c, hc, hm⟩ := List.any_eq_true.1 h.1.2
  have k5 := k4 (.inr ⟨c, hc, of_decide_eq_true hm⟩)
  unfold parseColumnSpecification
  rw [k1]
  dsimp only
  have : (st.revSpec.isEmpty || !st.hasContent) = false := by
    rw [k5, List.isEmpty_eq_false_iff.2 (k3 k5)]
    rfl
  rw [this]
  refine ⟨_, rfl, ?_⟩
  show allContent st.revSpec.reverse = true
  unfold allContent at k2 ⊢
  rw [List.all_reverse]
  exact k2

theorem columns_text {s : Str} (h : ∀ c ∈ s, c ∈ c!"lcr|") : plainText (s.map Lexer.charToken) = some s := by
  induction s with
  | nil => rfl
  | cons c s ih =>
    have hc := h c List.mem_cons_self
    have ih := ih fun d hd => h d (List.mem_cons_of_mem _ hd)
    rw [List.map_cons]
    unfold plainText
    rw [ih]
    simp only [List.mem_cons, List.not_mem_nil, or_false] at hc
    rcases hc with rfl | rfl | rfl | rfl <;> rfl

theorem head_array {name columns : Str} {ls : List Lexeme} {rows : List (List (List Tree))} {f : Form} (h : name ∈ arrayNames)
    (hc : isColumns columns = true) (hf : TableGood ls rows true f) :
    ∃ hd, HeadGood (.opens name :: .char '{' :: (columns.map .next ++ .next '}' :: (ls ++ [.closes name]))) (tableTree false rows)
      false bracket follows hd := by
  have hr := List.all_eq_true.1 arrays_known name h
  obtain ⟨x, hx, ha⟩ := columns_known hc
  have hcs : ∀ c ∈ columns, c ∈ c!"lcr|" := by
    unfold isColumns at hc
    simp only [Bool.and_eq_true] at hc
    exact fun c h => of_decide_eq_true (List.all_eq_true.1 hc.1.1 c h)
  split at hr
  · rename_i e heq
    simp only [Bool.and_eq_true, Bool.not_eq_true', Option.isNone_iff_eq_none] at hr
    obtain ⟨⟨⟨⟨h2, h3⟩, h4⟩, h5⟩, h6⟩ := hr
    rw [← h4] at hf
    have hcol : EnvArgs.columns { spec := some (columns.map Lexer.charToken) } e = .ok (some ⟨x.borderLeft, none, e = .subarray, x.columns⟩) := by
      unfold EnvArgs.columns
      dsimp only
      rw [columns_text hcs]
      show (match parseColumnSpecification columns with | some s => _ | none => _) = _
      rw [hx]
    have hshape : ∀ ps, envShape e { spec := some (columns.map Lexer.charToken) } ps = tableShape x.columns ps := by
      intro ps
      unfold envShape givenColumns
      rw [hcol, h6, h3]
      clear hf hcol
      cases e <;> first | rfl | cases h2
    have := head_env (bracket := bracket) (follows := follows) (lo := .char '{' :: (columns.map .next ++ [.next '}']))
      (o := { spec := some (columns.map Lexer.charToken) })
      (t := tableTree false rows) heq hf h5 ?_ ?_ ?_ hcol rfl (construct_array e h2 _) h3 (fun ps => ?_) fun ps => ?_
    · simpa only [List.cons_append, List.append_assoc, List.nil_append] using this
    · show ((!noSpec e && (plainText _).isSome) && true) = true
      rw [h2, columns_text hcs]
      rfl
    · refine fixed_cons rfl (fixed_append (fun l hl => ?_) (fixed_one rfl))
      obtain ⟨c, -, rfl⟩ := List.mem_map.1 hl
      rfl
    · show textTokens (columns.map Lexer.charToken) ++ [] = _
      rw [List.append_nil, tks_cons, tks_append]
      unfold textTokens tks tight
      rw [List.map_map, List.map_map]
      rfl
    · rw [hshape]
      by_cases hp : rowTrees (rowsOfPieces ps) = rows
      · exact .inl (by rw [table_tree (content_column ha), hp])
      · exact .inr hp
    · rw [hshape]
      rfl
  · cases hr

end Verif

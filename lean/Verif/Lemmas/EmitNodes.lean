import Verif.Lemmas.Emit
/-! The emitter writes the tree that a node stands for: each kind of node, given its children. -/
namespace Verif
open Verif.Model Verif.Spec

theorem nodup_nil : (([] : Attrs).map Prod.fst).Nodup := by simp

/-- An element without attributes -/
theorem Reads.el {n inner ws : Str} {kids : List Xml} (hn : isName n = true) (ht : notToken n = true)
    (hi : Reads inner kids) (hw : Blank ws) :
    Reads ('<' :: (n ++ (c!">" ++ (inner ++ (ws ++ ('<' :: '/' :: (n ++ c!">"))))))) [el n kids] :=
  (Reads.block hn ht .nil nodup_nil hi hw).congr (by simp) rfl

theorem Reads.tok {n inner : Str} {kids : List Xml} (hn : isName n = true)
    (ht : tokenElements.contains n = true) (hi : TokenReads inner kids) :
    Reads ('<' :: (n ++ (c!">" ++ (inner ++ ('<' :: '/' :: (n ++ c!">")))))) [Spec.el n kids] :=
  (Reads.token hn ht .nil nodup_nil hi).congr (by simp) rfl

theorem Reads.two {a b : Str} {x y : Xml} (ha : Reads a [x]) (hb : Reads b [y]) : Reads (a ++ b) [x, y] :=
  ha.append hb

theorem Reads.three {a b c : Str} {x y z : Xml} (ha : Reads a [x]) (hb : Reads b [y]) (hc : Reads c [z]) :
    Reads (a ++ b ++ c) [x, y, z] := (ha.append hb).append hc

theorem number_reads {n : Str} (h : PlainText n) : Reads (c!"<mn>" ++ n ++ c!"</mn>") [el c!"mn" (txt n)] :=
  (Reads.tok (n := c!"mn") rfl rfl (.plain h)).congr (by simp) rfl

theorem mspace_reads : Reads c!"<mspace/>" [el c!"mspace" []] :=
  Reads.void (n := c!"mspace") (at_ := []) rfl .nil nodup_nil

/-- An identifier in a row with an empty space -/
theorem wrapped_reads {at_ s : Str} {as : Attrs} {kids : List Xml} (ha : AttrReads at_ as)
    (hd : (as.map Prod.fst).Nodup) (h : TokenReads s kids) :
    Reads (c!"<mrow><mspace/><mi" ++ at_ ++ c!">" ++ s ++ c!"</mi></mrow>")
      [el c!"mrow" [el c!"mspace" [], .elem c!"mi" as kids]] :=
  (Reads.el (n := c!"mrow") rfl rfl (mspace_reads.two (Reads.token (n := c!"mi") rfl rfl ha hd h)) .nil).congr
    (by simp) rfl

theorem identifierChar_reads {l : SuperChar} {attr : LetterAttr} (h : PlainText l.text) :
    Reads (if attr = .forcedUpright then
        lit (c!"<mrow><mspace/><mi mathvariant=\"normal\">" ++ l.text ++ c!"</mi></mrow>")
      else if l.tryAsChar.isNone then
        lit (c!"<mrow><mspace/><mi>" ++ l.text ++ c!"</mi></mrow>")
      else lit (c!"<mi>" ++ l.text ++ c!"</mi>")).s
      [if attr = .forcedUpright then
        el c!"mrow" [el c!"mspace" [], .elem c!"mi" [(c!"mathvariant", c!"normal")] (txt l.text)]
      else if l.tryAsChar.isSome then el c!"mi" (txt l.text)
      else el c!"mrow" [el c!"mspace" [], el c!"mi" (txt l.text)]] := by
  split
  · exact (wrapped_reads (AttrReads.str (a := c!"mathvariant") (v := c!"normal") rfl (.of rfl)) (by simp)
      (.plain h)).congr (by simp [lit]) rfl
  · cases l.tryAsChar with
    | none => exact (wrapped_reads .nil nodup_nil (.plain h)).congr (by simp [lit]) rfl
    | some c => exact (Reads.tok (n := c!"mi") rfl rfl (.plain h)).congr (by simp [lit]) rfl

theorem sizeAttrs_reads (s : Option Size) :
    AttrReads (match s with
      | some size => c!" minsize=\"" ++ size.str ++ c!"\" maxsize=\"" ++ size.str ++ c!"\""
      | none => []) (sizeAttrs s) := by
  cases s with
  | none => exact .nil
  | some s =>
    exact ((AttrReads.str (a := c!"minsize") rfl (plain_size s)).append
      (AttrReads.str (a := c!"maxsize") rfl (plain_size s))).congr (by simp) rfl

theorem operator_reads {op : MathMLOperator} {a : OpAttrs} (h : FlagsOk a) (size : Option Size)
    (l r : Option MathSpacing) :
    Reads (operatorAttributes a l r ++
      (match size with
        | some size => c!" minsize=\"" ++ size.str ++ c!"\" maxsize=\"" ++ size.str ++ c!"\""
        | none => []) ++
      c!">" ++ op.text ++ c!"</mo>")
      [.elem c!"mo" (flagAttrs a ++ spacingAttrs l r ++ sizeAttrs size) (txt op.sc.text)] := by
  obtain ⟨t, ht, hr⟩ := operatorAttributes_reads a l r
  rw [ht]
  have hs := sizeAttrs_reads size
  generalize (match size with
    | some size => c!" minsize=\"" ++ size.str ++ c!"\" maxsize=\"" ++ size.str ++ c!"\""
    | none => []) = u at hs ⊢
  refine (Reads.token (n := c!"mo") rfl rfl (hr.append hs) ?_ (.op op)).congr (by simp) rfl
  exact nodup_sub (sub_append (sub_append (flagAttrs_sub h) (spacingAttrs_sub l r)) (sizeAttrs_sub size))
    (by decide)

theorem pseudoOp_reads {a : OpAttrs} (h : FlagsOk a) (l r : Option MathSpacing) {name : Str}
    (hn : PlainText name) :
    Reads (operatorAttributes a l r ++ c!">" ++ name ++ c!"</mo>")
      [.elem c!"mo" (flagAttrs a ++ spacingAttrs l r) (txt name)] := by
  obtain ⟨t, ht, hr⟩ := operatorAttributes_reads a l r
  rw [ht]
  refine (Reads.token (n := c!"mo") rfl rfl hr ?_ (.plain hn)).congr (by simp) rfl
  exact nodup_sub (sub_append (flagAttrs_sub h) (spacingAttrs_sub l r)) (by decide)

/-- The operator of an accent -/
theorem accentOp_reads {op : MathMLOperator} {a : OpAttrs} (h : FlagsOk a) :
    Reads (c!"<mo" ++ (a.text ++ c!">" ++ op.text ++ c!"</mo>"))
      [.elem c!"mo" (flagAttrs a) (txt op.sc.text)] := by
  refine (Reads.token (n := c!"mo") rfl rfl (flagAttrs_reads a) ?_ (.op op)).congr (by simp) rfl
  exact nodup_sub (flagAttrs_sub h) (by decide)

theorem identifierStr_reads (s : Str) :
    Reads (c!"<mrow><mspace/><mi>" ++ escapeHtml s ++ c!"</mi></mrow>")
      [el c!"mrow" [el c!"mspace" [], el c!"mi" (txt s)]] :=
  (wrapped_reads .nil nodup_nil (.escape s)).congr (by simp) rfl

theorem textStyle_reads (style : Option HtmlTextStyle) {s : Str} {kids : List Xml} (h : TokenReads s kids) :
    TokenReads ((textTags style).1 ++ (s ++ (textTags style).2)) (textStyleXml style kids) := by
  have plain : ∀ (n : Str), isName n = true → ∀ (s : Str) (kids : List Xml), TokenReads s kids →
      TokenReads ('<' :: (n ++ (c!">" ++ (s ++ ('<' :: '/' :: (n ++ c!">")))))) [el n kids] :=
    fun n hn s kids h => TokenReads.elem (at_ := []) hn .nil nodup_nil h
  have congr : ∀ {a b : Str} {xs : List Xml}, TokenReads a xs → a = b → TokenReads b xs :=
    fun h e => e ▸ h
  cases style with
  | none => exact congr h (by simp [textTags])
  | some style =>
    cases style with
    | bold => exact congr (plain c!"b" rfl _ _ h) (by simp [textTags])
    | italic => exact congr (plain c!"i" rfl _ _ h) (by simp [textTags])
    | boldItalic => exact congr (plain c!"b" rfl _ _ (plain c!"i" rfl _ _ h)) (by simp [textTags])
    | emphasis => exact congr (plain c!"em" rfl _ _ h) (by simp [textTags])
    | typewriter => exact congr (plain c!"code" rfl _ _ h) (by simp [textTags])
    | smallCaps =>
      exact congr (TokenReads.elem (n := c!"span") rfl
        (AttrReads.str (a := c!"style") (v := c!"font-variant-caps: small-caps") rfl (.of rfl)) (by simp) h)
        (by simp [textTags])
    | sansSerif =>
      exact congr (TokenReads.elem (n := c!"span") rfl
        (AttrReads.str (a := c!"class") (v := c!"math-core-sans-serif-font") rfl (.of rfl)) (by simp) h)
        (by simp [textTags])
    | serif =>
      exact congr (TokenReads.elem (n := c!"span") rfl
        (AttrReads.str (a := c!"class") (v := c!"math-core-serif-font") rfl (.of rfl)) (by simp) h)
        (by simp [textTags])
    | strikethrough => exact congr (plain c!"s" rfl _ _ h) (by simp [textTags])
    | underline => exact congr (plain c!"u" rfl _ _ h) (by simp [textTags])

theorem text_reads (style : Option HtmlTextStyle) (size : Option HtmlTextSize) (s : Str) :
    Reads (c!"<mtext" ++
      (match size with
        | some size => c!" style=\"font-size:" ++ size.str ++ c!"\""
        | none => []) ++
      c!">" ++ (textTags style).1 ++ escapeHtml s ++ (textTags style).2 ++ c!"</mtext>")
      [.elem c!"mtext" (optAttr c!"style" (size.map fun z => c!"font-size:" ++ z.str))
        (textStyleXml style (txt s))] := by
  have ha : AttrReads (match size with
      | some size => c!" style=\"font-size:" ++ size.str ++ c!"\""
      | none => []) (optAttr c!"style" (size.map fun z => c!"font-size:" ++ z.str)) := by
    cases size with
    | none => exact .nil
    | some z =>
      refine (AttrReads.str (a := c!"style") (v := c!"font-size:" ++ z.str) rfl ?_).congr (by simp) rfl
      cases z <;> exact .of rfl
  generalize (match size with
      | some size => c!" style=\"font-size:" ++ size.str ++ c!"\""
      | none => []) = u at ha ⊢
  exact (Reads.token (n := c!"mtext") rfl rfl ha (nodup_sub (optAttr_sub _ _) (by simp))
    (textStyle_reads style (.escape s))).congr (by simp) rfl

theorem space_reads {fmt : Rat → Str} (h : ∀ r, PlainValue (fmt r)) (l : Length) :
    Reads (c!"<mspace " ++
      (if l.isNegative then c!"style=\"margin-left:" ++ l.str fmt ++ c!";"
       else c!"width=\"" ++ l.str fmt ++
        (if l.unit = .rem then c!"\" style=\"width:" ++ l.str fmt else [])) ++
      c!"\"/>") [.elem c!"mspace" (spaceAttrs fmt l) []] := by
  have hp := plain_length h l
  unfold spaceAttrs
  split
  · exact (Reads.void (n := c!"mspace") rfl (AttrReads.str (a := c!"style") rfl
      (((PlainValue.of (s := c!"margin-left:") rfl).append hp).append (.of (s := c!";") rfl))) (by simp)).congr
      (by simp) rfl
  · by_cases hu : l.unit = .rem
    · simp only [hu, if_pos, attrIf, decide_true]
      exact (Reads.void (n := c!"mspace") rfl ((AttrReads.str (a := c!"width") rfl hp).append
        (AttrReads.str (a := c!"style") rfl ((PlainValue.of (s := c!"width:") rfl).append hp)))
        (by simp)).congr (by simp) rfl
    · simp only [hu, if_neg, attrIf, decide_false]
      exact (Reads.void (n := c!"mspace") rfl (AttrReads.str (a := c!"width") rfl hp)
        (by simp)).congr (by simp) rfl

theorem frac_attrs_reads {fmt : Rat → Str} (h : ∀ r, PlainValue (fmt r)) (len : Option Length)
    (attr : Option FracAttr) :
    AttrReads ((match len with
        | some lt => c!" linethickness=\"" ++ lt.str fmt ++ c!"\""
        | none => []) ++
      (match attr with
        | some style => style.attrs
        | none => []))
      (optAttr c!"linethickness" (len.map (·.str fmt)) ++ fracAttrs attr) := by
  refine AttrReads.append ?_ (fracAttrs_reads attr)
  cases len with
  | none => exact .nil
  | some l => exact (AttrReads.str (a := c!"linethickness") rfl (plain_length h l)).congr (by simp) rfl

theorem frac_attrs_nodup {fmt : Rat → Str} (len : Option Length) (attr : Option FracAttr) :
    ((optAttr c!"linethickness" (len.map (·.str fmt)) ++ fracAttrs attr).map Prod.fst).Nodup :=
  nodup_sub (sub_append (optAttr_sub _ _) (fracAttrs_sub attr)) (by decide)

theorem row_attrs_reads (a : RowAttrs) :
    AttrReads ((if a.color.isSome || a.mathShiftCompact then
        c!" style=\"" ++
        (match a.color with
          | some (r, g, b) => c!"color:#" ++ u8Hex r ++ u8Hex g ++ u8Hex b ++ c!";"
          | none => []) ++
        (if a.mathShiftCompact then c!"math-shift:compact;" else []) ++ c!"\""
       else []) ++
      (match a.style with
        | some style => style.attrs
        | none => []))
      (styleAttr (rowCss a) ++ styleAttrs a.style) := by
  refine AttrReads.append ?_ (styleAttrs_reads a.style)
  have hp : PlainValue (rowCss a) := by
    unfold rowCss
    refine .append ?_ (by split <;> exact .of rfl)
    split
    · exact ((((PlainValue.of rfl).append (plain_u8Hex _)).append (plain_u8Hex _)).append
        (plain_u8Hex _)).append (.of rfl)
    · exact .of rfl
  refine (styleAttr_reads hp).congr ?_ rfl
  obtain ⟨color, style, compact⟩ := a
  unfold rowCss
  cases color <;> cases compact <;> simp

theorem row_attrs_nodup (a : RowAttrs) : ((styleAttr (rowCss a) ++ styleAttrs a.style).map Prod.fst).Nodup :=
  nodup_sub (sub_append (styleAttr_sub _) (styleAttrs_sub _)) (by decide)

theorem table_attrs_reads {css : Str} (h : PlainValue css) (style : Option Style) :
    AttrReads ((if css = [] then [] else c!" style=\"" ++ (css ++ c!"\"")) ++
      (match style with
        | some style => style.attrs
        | none => []))
      (styleAttr css ++ styleAttrs style) := (styleAttr_reads h).append (styleAttrs_reads style)

theorem table_attrs_nodup (css : Str) (style : Option Style) :
    ((styleAttr css ++ styleAttrs style).map Prod.fst).Nodup :=
  nodup_sub (sub_append (styleAttr_sub _) (styleAttrs_sub _)) (by decide)

theorem padded_attrs_reads (width0 height0 : Bool) (left right : Option MathSpacing) :
    AttrReads ((if width0 then c!" width=\"0\"" else []) ++
      (if height0 then c!" height=\"0\"" else []) ++
      (if left.isSome || right.isSome then
        c!" style=\"" ++
        (match left with
          | some left => c!"padding-left:" ++ left.str ++ c!";"
          | none => []) ++
        (match right with
          | some right => c!"padding-right:" ++ right.str ++ c!";"
          | none => []) ++ c!"\""
       else []))
      (attrIf width0 c!"width" c!"0" ++ attrIf height0 c!"height" c!"0" ++
        styleAttr (paddingCss left right)) := by
  refine ((attrIf_reads width0 c!"width" c!"0" rfl rfl).append
    (attrIf_reads height0 c!"height" c!"0" rfl rfl)).append ?_
  have hp : PlainValue (paddingCss left right) := by
    unfold paddingCss
    cases left <;> cases right <;>
    first
      | exact .of rfl
      | exact .append (.of rfl) (((PlainValue.of rfl).append (plain_spacing _)).append (.of rfl))
      | exact .append (((PlainValue.of rfl).append (plain_spacing _)).append (.of rfl)) (.of rfl)
      | exact .append (((PlainValue.of rfl).append (plain_spacing _)).append (.of rfl))
          (((PlainValue.of rfl).append (plain_spacing _)).append (.of rfl))
  refine (styleAttr_reads hp).congr ?_ rfl
  unfold paddingCss
  cases left <;> cases right <;> simp [spacing_str]

/-- A nest of padding elements -/
theorem padded_reads {fmt : Rat → Str} (h : ∀ r, PlainValue (fmt r)) {at_ : Str} {as : Attrs}
    (ha : AttrReads at_ as) (hd : (c!"voffset" :: as.map Prod.fst).Nodup) {inner ws : Str} {x : Xml}
    (hi : Reads inner [x]) (hw : Blank ws) (ls : List Length) :
    Reads (c!"<mpadded" ++
      ((match ls.head? with
        | some l => c!" voffset=\"" ++ l.str fmt ++ c!"\""
        | none => []) ++
      ls.tail.flatMap (fun l => c!"><mpadded voffset=\"" ++ l.str fmt ++ c!"\"")) ++ at_ ++ c!">" ++ inner ++
      (ws ++ c!"</mpadded>") ++ (ls.drop 1).flatMap (fun _ => c!"</mpadded>"))
      [paddedXml fmt as x ls] := by
  have hd' := (List.nodup_cons.1 hd).2
  have base : ∀ l : Length, Reads ('<' :: (c!"mpadded" ++ ((c!" voffset=\"" ++ l.str fmt ++ c!"\"") ++ at_ ++ (c!">" ++ (inner ++ (ws ++ ('<' :: '/' :: (c!"mpadded" ++ c!">"))))))))
      [.elem c!"mpadded" ((c!"voffset", l.str fmt) :: as) [x]] := fun l =>
    (Reads.block (n := c!"mpadded") rfl rfl
      ((AttrReads.str (a := c!"voffset") rfl (plain_length h l)).append ha) (by simpa using hd) hi hw).congr
      (by simp) rfl
  cases ls with
  | nil => exact (Reads.block (n := c!"mpadded") rfl rfl ha hd' hi hw).congr (by simp) rfl
  | cons l ls =>
    have key : ∀ l, Reads (c!"<mpadded voffset=\"" ++ l.str fmt ++ c!"\"" ++
        (ls.flatMap (fun l => c!"><mpadded voffset=\"" ++ l.str fmt ++ c!"\"") ++ at_ ++ c!">" ++ inner ++
        (ws ++ c!"</mpadded>") ++ ls.flatMap (fun _ => c!"</mpadded>")))
        [paddedXml fmt as x (l :: ls)] := by
      induction ls with
      | nil => intro l; exact (base l).congr (by simp) rfl
      | cons l' ls ih =>
        intro l
        refine (Reads.elem (n := c!"mpadded") rfl rfl
          (AttrReads.str (a := c!"voffset") rfl (plain_length h l)) (by simp) (ih l')).congr ?_ rfl
        have hrot : ∀ (ls : List Length) (a : Str), ls.flatMap (fun _ => a) ++ a = a ++ ls.flatMap (fun _ => a) := by
          intro ls a
          induction ls with
          | nil => simp
          | cons l ls ih => simp [ih]
        have := hrot ls c!"</mpadded>"
        rw [List.flatMap_cons (xs := ls) (f := fun _ => c!"</mpadded>"), ← this]
        simp
    exact (key l).congr (by simp) rfl

theorem notationText_eq (n : Notation) : notationText n = [' '].intercalate (notationNames n) := by
  unfold notationText notationNames
  rw [ncontains_bit n 0 .upDiagonal (by decide) (by decide), ncontains_bit n 1 .downDiagonal (by decide) (by decide),
    ncontains_bit n 2 .box (by decide) (by decide), ncontains_bit n 3 .actuarial (by decide) (by decide),
    ncontains_bit n 4 .phasorAngle (by decide) (by decide)]
  cases n.getLsbD 0 <;> cases n.getLsbD 1 <;> cases n.getLsbD 2 <;> cases n.getLsbD 3 <;> cases n.getLsbD 4 <;> rfl

theorem notation_plain (n : Notation) : PlainValue ([' '].intercalate (notationNames n)) := by
  unfold notationNames
  cases n.getLsbD 0 <;> cases n.getLsbD 1 <;> cases n.getLsbD 2 <;> cases n.getLsbD 3 <;> cases n.getLsbD 4 <;>
    exact .of rfl

theorem mark_reads {ws : Str} (hw : Blank ws) (b : Bool) {v : Str} (hv : PlainValue v) :
    Reads (if b then ws ++ (c!"<mrow class=\"" ++ (v ++ c!"\"></mrow>")) else [])
      (if b then [.elem c!"mrow" [(c!"class", v)] []] else []) := by
  cases b with
  | false => exact .nil
  | true =>
    exact ((Reads.blank hw).append (Reads.empty (n := c!"mrow") rfl rfl (AttrReads.str (a := c!"class") rfl hv)
      (by simp))).congr (by simp) rfl

theorem href_reads {at_ v s : Str} {kids : List Xml} (ha : ValueReads at_ v) (h : TokenReads s kids) :
    Reads (c!"<mtext><a href=\"" ++ at_ ++ c!"\">" ++ s ++ c!"</a></mtext>")
      [el c!"mtext" [.elem c!"a" [(c!"href", v)] kids]] :=
  (Reads.tok (n := c!"mtext") rfl rfl (TokenReads.elem (n := c!"a") rfl (AttrReads.one (a := c!"href") rfl ha)
    (by simp) h)).congr (by simp) rfl

theorem unknown_reads {cls name : Str} (hc : PlainValue cls) (h : PlainText name) :
    Reads (c!"<merror class=\"" ++ cls ++ c!"\"><mtext>\\" ++ name ++ c!"</mtext></merror>")
      [.elem c!"merror" [(c!"class", cls)] [el c!"mtext" (txt ('\\' :: name))]] :=
  (Reads.elem (n := c!"merror") rfl rfl (AttrReads.str (a := c!"class") rfl hc) (by simp)
    (Reads.tok (n := c!"mtext") rfl rfl (.plain (h.cons (c := '\\') rfl)))).congr (by simp) rfl

theorem parens_reads (s : Str) : TokenReads (c!"(" ++ escapeHtml s ++ c!")") [.text (c!"(" ++ s ++ c!")")] := by
  intro top below ht
  refine ⟨c!"(" ++ s ++ c!")", top, ?_, (flush_txt ht _).trans (by simp [txt])⟩
  refine xrun_app (xrun_app (t := ⟨.text c!"(", top, below⟩) rfl (xrun_escape s _ top below)) ?_
  rw [xrun_plain c!")" (.of rfl)]

end Verif

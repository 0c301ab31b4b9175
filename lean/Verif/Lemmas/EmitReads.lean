import Verif.Lemmas.EmitNodes
/-! The emitter writes the tree that a syntax tree stands for. -/
namespace Verif
open Verif.Model Verif.Spec

theorem reads_after {ws body : Str} {xs : List Xml} (hw : Blank ws) (h : Reads body xs) :
    Reads (ws ++ [] ++ body) xs := (Reads.blank (hw.append .nil)).append h

/-- The text of a mark -/
theorem mark_text (ws v : Str) (b : Bool) :
    (if b then lit (ws ++ v) else lit []).s = if b then ws ++ v else [] := by cases b <;> rfl

mutual
theorem emit_reads {cfg : EmitCfg} (hc : CfgOk cfg) (i : Nat) :
    ∀ n, NodeOk n → Reads (emit cfg n i).s [toXml cfg n] := by
  intro n
  have hb := blank_newLineAndIndent i cfg.indentation
  have hb' := blank_newLineAndIndent (if i > 0 then i + 1 else 0) cfg.indentation
  match n with
  | .number n =>
    intro h
    simp only [emit, toXml, Out.append_s, lit_s]
    exact reads_after hb (number_reads h)
  | .identifierChar l a =>
    intro h
    simp only [emit, toXml, Out.append_s, lit_s]
    exact reads_after hb (identifierChar_reads h)
  | .identifierStr s =>
    intro h
    simp only [emit, toXml, Out.append_s, lit_s]
    exact reads_after hb (identifierStr_reads s)
  | .operator op attrs size left right =>
    intro h
    simp only [emit, toXml, Out.append_s, lit_s]
    exact reads_after hb (operator_reads h size left right)
  | .pseudoOp attrs left right name =>
    intro h
    simp only [emit, toXml, Out.append_s, lit_s]
    exact reads_after hb (pseudoOp_reads h.1 left right h.2)
  | .space l =>
    intro h
    simp only [emit, toXml, Out.append_s, lit_s]
    exact reads_after hb (space_reads hc.fmt l)
  | .sub a b =>
    intro h
    simp only [emit, toXml, Out.append_s, lit_s]
    exact reads_after hb ((Reads.el (n := c!"msub") rfl rfl
      (.two (emit_reads hc (if i > 0 then i + 1 else 0) a h.1) (emit_reads hc (if i > 0 then i + 1 else 0) b h.2)) hb).congr (by simp) rfl)
  | .sup a b =>
    intro h
    simp only [emit, toXml, Out.append_s, lit_s]
    exact reads_after hb ((Reads.el (n := c!"msup") rfl rfl
      (.two (emit_reads hc (if i > 0 then i + 1 else 0) a h.1) (emit_reads hc (if i > 0 then i + 1 else 0) b h.2)) hb).congr (by simp) rfl)
  | .over a b =>
    intro h
    simp only [emit, toXml, Out.append_s, lit_s]
    exact reads_after hb ((Reads.el (n := c!"mover") rfl rfl
      (.two (emit_reads hc (if i > 0 then i + 1 else 0) b h.2) (emit_reads hc (if i > 0 then i + 1 else 0) a h.1)) hb).congr (by simp) rfl)
  | .under a b =>
    intro h
    simp only [emit, toXml, Out.append_s, lit_s]
    exact reads_after hb ((Reads.el (n := c!"munder") rfl rfl
      (.two (emit_reads hc (if i > 0 then i + 1 else 0) b h.2) (emit_reads hc (if i > 0 then i + 1 else 0) a h.1)) hb).congr (by simp) rfl)
  | .root a b =>
    intro h
    simp only [emit, toXml, Out.append_s, lit_s]
    exact reads_after hb ((Reads.el (n := c!"mroot") rfl rfl
      (.two (emit_reads hc (if i > 0 then i + 1 else 0) b h.2) (emit_reads hc (if i > 0 then i + 1 else 0) a h.1)) hb).congr (by simp) rfl)
  | .subSup a b c =>
    intro h
    simp only [emit, toXml, Out.append_s, lit_s]
    exact reads_after hb ((Reads.el (n := c!"msubsup") rfl rfl
      (.three (emit_reads hc (if i > 0 then i + 1 else 0) a h.1) (emit_reads hc (if i > 0 then i + 1 else 0) b h.2.1) (emit_reads hc (if i > 0 then i + 1 else 0) c h.2.2)) hb).congr
      (by simp) rfl)
  | .underOver a b c =>
    intro h
    simp only [emit, toXml, Out.append_s, lit_s]
    exact reads_after hb ((Reads.el (n := c!"munderover") rfl rfl
      (.three (emit_reads hc (if i > 0 then i + 1 else 0) a h.1) (emit_reads hc (if i > 0 then i + 1 else 0) b h.2.1) (emit_reads hc (if i > 0 then i + 1 else 0) c h.2.2)) hb).congr
      (by simp) rfl)
  | .overAccent op attrs a =>
    intro h
    simp only [emit, toXml, Out.append_s, lit_s]
    exact reads_after hb ((Reads.block (n := c!"mover") rfl rfl
      (AttrReads.str (a := c!"accent") (v := c!"true") rfl (.of rfl)) (by simp)
      (.two (emit_reads hc (if i > 0 then i + 1 else 0) a h.2) ((Reads.blank hb').append (accentOp_reads h.1))) hb).congr (by simp) rfl)
  | .underAccent op attrs a =>
    intro h
    simp only [emit, toXml, Out.append_s, lit_s]
    exact reads_after hb ((Reads.block (n := c!"munder") rfl rfl
      (AttrReads.str (a := c!"accentunder") (v := c!"true") rfl (.of rfl)) (by simp)
      (.two (emit_reads hc (if i > 0 then i + 1 else 0) a h.2) ((Reads.blank hb').append (accentOp_reads h.1))) hb).congr (by simp) rfl)
  | .sqrt a =>
    intro h
    simp only [emit, toXml, Out.append_s, lit_s]
    exact reads_after hb ((Reads.el (n := c!"msqrt") rfl rfl (emit_reads hc (if i > 0 then i + 1 else 0) a h) hb).congr (by simp) rfl)
  | .frac a b v u attr =>
    intro h
    simp only [emit, toXml, Out.append_s, lit_s]
    refine reads_after hb ((Reads.block (n := c!"mfrac") rfl rfl
      (frac_attrs_reads hc.fmt (Length.fromParts v u) attr) (frac_attrs_nodup _ _)
      (.two (emit_reads hc (if i > 0 then i + 1 else 0) a h.1) (emit_reads hc (if i > 0 then i + 1 else 0) b h.2)) hb).congr ?_ rfl)
    generalize Length.fromParts v u = len
    cases len <;> cases attr <;> simp
  | .row nodes attrs =>
    intro h
    simp only [emit, toXml, Out.append_s, lit_s]
    have hk := emitList_reads hc (if i > 0 then i + 1 else 0) nodes h
    refine reads_after hb ?_
    cases nodes with
    | nil =>
      refine (Reads.block (n := c!"mrow") rfl rfl (row_attrs_reads attrs) (row_attrs_nodup attrs) .nil .nil).congr
        ?_ rfl
      obtain ⟨color, style, compact⟩ := attrs
      cases color <;> cases style <;> cases compact <;> simp [lit]
    | cons n ns =>
      refine (Reads.block (n := c!"mrow") rfl rfl (row_attrs_reads attrs) (row_attrs_nodup attrs) hk hb).congr
        ?_ rfl
      obtain ⟨color, style, compact⟩ := attrs
      cases color <;> cases style <;> cases compact <;> simp [lit, Out.append_s]
  | .padded a w0 h0 l r v =>
    intro h
    simp only [emit, toXml, Out.append_s, lit_s]
    have ha := padded_attrs_reads w0 h0 l r
    have hd : (c!"voffset" :: (attrIf w0 c!"width" c!"0" ++ attrIf h0 c!"height" c!"0" ++
        styleAttr (paddingCss l r)).map Prod.fst).Nodup := by
      have hs := sub_append (sub_append (attrIf_sub w0 c!"width" c!"0") (attrIf_sub h0 c!"height" c!"0"))
        (styleAttr_sub (paddingCss l r))
      exact (hs.cons_cons c!"voffset").nodup (by decide)
    refine reads_after hb ?_
    cases v with
    | none =>
      refine (padded_reads hc.fmt ha hd (emit_reads hc (if i > 0 then i + 1 else 0) a h) hb []).congr ?_ rfl
      cases l <;> cases r <;> simp
    | some v =>
      refine (padded_reads hc.fmt ha hd (emit_reads hc (if i > 0 then i + 1 else 0) a h) hb v.iter).congr ?_ rfl
      dsimp only
      generalize v.iter = ls
      cases ls <;> cases l <;> cases r <;> simp
  | .phantom a =>
    intro h
    simp only [emit, toXml, Out.append_s, lit_s]
    exact reads_after hb ((Reads.el (n := c!"mphantom") rfl rfl (emit_reads hc (if i > 0 then i + 1 else 0) a h) hb).congr (by simp) rfl)
  | .text style size s =>
    intro h
    simp only [emit, toXml, Out.append_s, lit_s]
    exact reads_after hb (text_reads style size s)
  | .aHref href s =>
    intro h
    simp only [emit, toXml, Out.append_s, lit_s]
    exact reads_after hb (href_reads (.escape href) (.escape s))
  | .eqRef label =>
    intro h
    simp only [emit, toXml, Out.append_s, lit_s]
    refine reads_after hb ?_
    have hv : PlainValue (c!"#" ++ cfg.idPrefix ++ percentEncode label) :=
      ((PlainValue.of rfl).append hc.idPrefix).append (plain_percent h)
    refine (href_reads (.plain hv) (parens_reads ((cfg.labelMap label).getD c!"??"))).congr ?_ (by simp [eqrefHref])
    cases cfg.labelMap label <;> simp
  | .table align style line content =>
    intro h
    simp only [emit, toXml, Out.append_s, lit_s]
    refine reads_after hb ((table_reads (base := i) (table_attrs_reads (lineCss_plain c!"top" rfl line) style)
      (table_attrs_nodup _ _) (lay := .columns align)
      (fun n m => emitCells_reads hc content h _ _ _ (by intro _ h; cases h) (if i > 0 then i + 1 else 0) n m)).congr ?_ rfl)
    rcases line with _ | (_ | _) <;> cases style <;> simp [lineCss, borderTopStr, lineName, typOf]
  | .equationArray align last content =>
    intro h
    simp only [emit, toXml, Out.append_s, lit_s]
    refine reads_after hb ((table_reads (base := i) (as := numberedAttrs)
      (((AttrReads.str (a := c!"displaystyle") (v := c!"true") rfl (.of rfl)).append
      (AttrReads.str (a := c!"scriptlevel") (v := c!"0") rfl (.of rfl))).append
      (AttrReads.str (a := c!"style") (v := c!"width: 100%") rfl (.of rfl))) (by decide)
      (lay := .columns align)
      (fun n m => emitCells_reads hc content h.2 _ _ _ h.1 (if i > 0 then i + 1 else 0) n m)).congr ?_ rfl)
    simp [typOf]
  | .multLine numRows last content =>
    intro h
    simp only [emit, toXml, Out.append_s, lit_s]
    refine reads_after hb ((table_reads (base := i) (as := numberedAttrs)
      (((AttrReads.str (a := c!"displaystyle") (v := c!"true") rfl (.of rfl)).append
      (AttrReads.str (a := c!"scriptlevel") (v := c!"0") rfl (.of rfl))).append
      (AttrReads.str (a := c!"style") (v := c!"width: 100%") rfl (.of rfl))) (by decide)
      (lay := .multline numRows)
      (fun n m => emitCells_reads hc content h.2 _ _ _ h.1 (if i > 0 then i + 1 else 0) n m)).congr ?_ rfl)
    simp [typOf]
  | .array style spec content =>
    intro h
    simp only [emit, toXml, Out.append_s, lit_s]
    refine reads_after hb ((table_reads (base := i) (table_attrs_reads ((lineCss_plain c!"left" rfl spec.borderLeft).append
      (lineCss_plain c!"top" rfl spec.borderTop)) style)
      (table_attrs_nodup _ _) (lay := .spec spec)
      (fun n m => emitCells_reads hc content h _ _ _ (by intro _ h; cases h) (if i > 0 then i + 1 else 0) n m)).congr ?_ rfl)
    obtain ⟨left, top, isSub, cols⟩ := spec
    rcases left with _ | (_ | _) <;> rcases top with _ | (_ | _) <;> cases style <;>
      simp [lineCss, borderTopStr, lineName, typOf]
  | .columnSeparator => intro h; exact h.elim
  | .rowSeparator _ _ => intro h; exact h.elim
  | .enclose a notn =>
    intro h
    simp only [emit, toXml, Out.append_s, lit_s]
    refine reads_after hb ((Reads.block (n := c!"menclose") rfl rfl
      (AttrReads.str (a := c!"notation") rfl (notation_plain notn)) (by simp)
      (kids := toXml cfg a :: notationMarks notn)
      ((emit_reads hc (if i > 0 then i + 1 else 0) a h).append (((mark_reads hb' (notn.getLsbD 4) (v := c!"menclose-phasorangle") (.of rfl)).append
        (mark_reads hb' (notn.getLsbD 0) (v := c!"menclose-updiagonalstrike") (.of rfl))).append
        (mark_reads hb' (notn.getLsbD 1) (v := c!"menclose-downdiagonalstrike") (.of rfl)))) hb).congr ?_ rfl)
    rw [notationText_eq, ncontains_bit notn 0 .upDiagonal (by decide) (by decide),
      ncontains_bit notn 1 .downDiagonal (by decide) (by decide),
      ncontains_bit notn 4 .phasorAngle (by decide) (by decide)]
    rw [mark_text, mark_text, mark_text]
    simp
  | .multiscripts a pre post =>
    intro h
    simp only [emit, toXml, Out.append_s, lit_s]
    have h1 := emit_reads hc (if i > 0 then i + 1 else 0) a h.1
    have h2 := emitPairs_reads hc (if i > 0 then i + 1 else 0) post h.2.2
    have h3 := emitPairs_reads hc (if i > 0 then i + 1 else 0) pre h.2.1
    refine reads_after hb ?_
    cases pre with
    | nil =>
      exact (Reads.el (n := c!"mmultiscripts") rfl rfl (h1.append h2) hb).congr (by simp [lit]) (by simp)
    | cons p ps =>
      have hm : Reads c!"<mprescripts/>" [el c!"mprescripts" []] :=
        Reads.void (n := c!"mprescripts") (at_ := []) rfl .nil nodup_nil
      exact (Reads.el (n := c!"mmultiscripts") rfl rfl (h1.append (h2.append
        (((Reads.blank hb').append hm).append h3))) hb).congr (by simp [lit, Out.append_s]) (by simp)
  | .unknownCommand name =>
    intro h
    simp only [emit, toXml, Out.append_s, lit_s]
    exact reads_after hb (unknown_reads hc.unknownClass h)

theorem emitList_reads {cfg : EmitCfg} (hc : CfgOk cfg) (i : Nat) :
    ∀ ns, NodesOk ns → Reads (emitList cfg ns i).s (toXmls cfg ns) := by
  intro ns
  match ns with
  | [] => intro h; exact .nil
  | n :: ns =>
    intro h
    simp only [emitList, toXmls, Out.append_s]
    exact (emit_reads hc i n h.1).append (emitList_reads hc i ns h.2)

theorem emitPairs_reads {cfg : EmitCfg} (hc : CfgOk cfg) (i : Nat) :
    ∀ ps, PairsOk ps → Reads (emitPairs cfg ps i).s (toXmlPairs cfg ps) := by
  intro ps
  match ps with
  | [] => intro h; exact .nil
  | (a, b) :: ps =>
    intro h
    simp only [emitPairs, toXmlPairs, Out.append_s]
    exact ((emit_reads hc i a h.1).append (emit_reads hc i b h.2.1)).append (emitPairs_reads hc i ps h.2.2)

theorem emitCells_reads {cfg : EmitCfg} (hc : CfgOk cfg) :
    ∀ ns, ContentOk ns → ∀ lay nums last, LabelOk last → ∀ k n m, CellsRead cfg lay nums last k n m ns := by
  intro ns
  match ns with
  | [] => intro _ lay nums last hl k n m; exact cells_nil hc lay nums hl k n m
  | nd :: ns =>
    intro h lay nums last hl k n m
    by_cases hs : isSeparator nd = true
    · cases nd with
      | columnSeparator => exact cells_column (emitCells_reads hc ns h lay nums last hl k n m)
      | rowSeparator label line => exact cells_row hc h.1 (emitCells_reads hc ns h.2 lay nums last hl k n m)
      | _ => simp [isSeparator] at hs
    · have h' : NodeOk nd ∧ ContentOk ns := by
        cases nd <;> first | exact h | exact absurd rfl hs
      exact cells_node (by simpa using hs) (emit_reads hc m nd h'.1)
        (emitCells_reads hc ns h'.2 lay nums last hl k n m)
end

end Verif

import Verif.Lemmas.EmitAttrs
/-! Cells of tables. -/
namespace Verif
open Verif.Model Verif.Spec

theorem utf8_amp {c : Char} {b : UInt8} (h : b ∈ String.utf8EncodeChar c) (hb : b.toNat = 38) :
    c = '&' := by
  unfold String.utf8EncodeChar at h
  simp only at h
  split at h
  · rename_i hv
    simp only [List.mem_singleton] at h
    subst h
    simp only [UInt8.toNat_ofNat', Nat.reducePow] at hb
    apply Char.ext
    apply UInt32.toNat_inj.1
    show c.val.toNat = 38
    have : c.val.toNat ≤ 127 := hv
    omega
  · exfalso
    split at h
    · simp only [List.mem_cons, List.not_mem_nil, or_false] at h
      rcases h with rfl | rfl <;>
        (simp only [UInt8.toNat_ofNat', Nat.reducePow] at hb; omega)
    · split at h
      · simp only [List.mem_cons, List.not_mem_nil, or_false] at h
        rcases h with rfl | rfl | rfl <;>
          (simp only [UInt8.toNat_ofNat', Nat.reducePow] at hb; omega)
      · simp only [List.mem_cons, List.not_mem_nil, or_false] at h
        rcases h with rfl | rfl | rfl | rfl <;>
          (simp only [UInt8.toNat_ofNat', Nat.reducePow] at hb; omega)

theorem plain_percent {s : Str} (h : '&' ∉ s) : PlainValue (percentEncode s) := by
  have hf : ∀ c ∈ percentEncode s, fragmentForbidden c = false := by
    intro c hc
    simp only [percentEncode, List.mem_flatMap] at hc
    obtain ⟨b, _, hc⟩ := hc
    exact encodeByte_safe b c hc
  refine ⟨fun hm => ?_, fun hm => ?_, fun hm => ?_⟩
  · exact absurd (hf _ hm) (by decide)
  · exact absurd (hf _ hm) (by decide)
  · simp only [percentEncode, List.mem_flatMap] at hm
    obtain ⟨b, ⟨c, hc, hb⟩, hm⟩ := hm
    have key : ∀ n : Fin 256, '&' ∈ encodeByte (UInt8.ofNat n.val) → n.val = 38 := by decide +kernel
    have hb38 : b.toNat = 38 := by
      refine key ⟨b.toNat, b.toNat_lt⟩ ?_
      simpa using hm
    exact h (utf8_amp hb hb38 ▸ hc)

/-- An element with nothing in it -/
theorem Reads.empty {n at_ : Str} {as : Attrs} (hn : isName n = true) (ht : notToken n = true)
    (ha : AttrReads at_ as) (hd : (as.map Prod.fst).Nodup) :
    Reads ('<' :: (n ++ (at_ ++ (c!">" ++ ('<' :: '/' :: (n ++ c!">")))))) [.elem n as []] :=
  Reads.elem (inner := []) hn ht ha hd .nil

theorem nodup_style (v : Str) : ([(c!"style", v)].map Prod.fst).Nodup := by simp

/-- A cell which is only a line -/
theorem reads_lineCell (spec : ArraySpec) (line : Option LineType) (l : LineType) :
    Reads (mtdOpenStyle ++ lineCss c!"top" line ++ borderRight l ++
      (if spec.isSub then paddingTopBottomZero else []) ++
      c!"padding-left: 0.1em;padding-right: 0.1em;" ++ c!"\"></mtd>")
      [.elem c!"mtd" [(c!"style", lineCss c!"top" line ++ lineCss c!"right" (some l) ++
        (if spec.isSub then c!"padding-top: 0;padding-bottom: 0;" else []) ++
        c!"padding-left: 0.1em;padding-right: 0.1em;")] []] := by
  have hb : borderRight l = lineCss c!"right" (some l) := by cases l <;> rfl
  rw [hb]
  have hp : PlainValue (lineCss c!"top" line ++ lineCss c!"right" (some l) ++
      (if spec.isSub then c!"padding-top: 0;padding-bottom: 0;" else []) ++
      c!"padding-left: 0.1em;padding-right: 0.1em;") := by
    refine ((((lineCss_plain _ rfl _).append (lineCss_plain _ rfl _)).append ?_).append (.of rfl))
    split <;> exact .of rfl
  refine (Reads.empty (n := c!"mtd") rfl rfl (AttrReads.str (a := c!"style") rfl hp) (nodup_style _)).congr ?_ rfl
  simp [mtdOpenStyle, paddingTopBottomZero]

/-- The type of generator for a layout -/
def typOf : Layout → AlignmentType
  | .columns a => .predefined a
  | .spec s => .custom s
  | .multline n => .multLine n

/-- The generator is in row `i`, in front of column `j`. -/
structure GenAt (lay : Layout) (line : Option LineType) (i j : Nat) (g : ColumnGenerator) : Prop where
  typ : g.typ = typOf lay
  row : g.rowIdx = i
  line : g.rowBorderTop = line
  col : match lay with
    | .spec s => ∀ k, column s.columnSpec (j + k) = column (s.columnSpec.drop g.columnIdx) k
    | _ => g.columnIdx = j

theorem GenAt.new (lay : Layout) : GenAt lay none 0 0 (.new (typOf lay)) := by
  refine ⟨rfl, rfl, rfl, ?_⟩
  cases lay with
  | spec s => intro k; simp [ColumnGenerator.new]
  | columns => rfl
  | multline => rfl

theorem GenAt.nextRow {lay : Layout} {line line' : Option LineType} {i j : Nat} {g : ColumnGenerator}
    (h : GenAt lay line i j g) : GenAt lay line' (i + 1) 0 (g.resetToNewRow.setRowBorderTop line') := by
  refine ⟨h.typ, by rw [← h.row]; rfl, rfl, ?_⟩
  cases lay with
  | spec s => intro k; simp [ColumnGenerator.resetToNewRow, ColumnGenerator.setRowBorderTop]
  | columns => rfl
  | multline => rfl

theorem onlyLines_reads (spec : ArraySpec) (line : Option LineType) (n : Nat) (ind : Indentation) :
    ∀ (fuel p : Nat), spec.columnSpec.length < fuel + p →
      Reads (onlyLines spec (lineCss c!"top" line) n ind fuel
          (spec.columnSpec[p]?.getD (.withContent .center none)) (p + 1)).1
        ((column (spec.columnSpec.drop p) 0).1.map fun l =>
          .elem c!"mtd" [(c!"style", lineCss c!"top" line ++ lineCss c!"right" (some l) ++
            (if spec.isSub then c!"padding-top: 0;padding-bottom: 0;" else []) ++
            c!"padding-left: 0.1em;padding-right: 0.1em;")] []) ∧
      (onlyLines spec (lineCss c!"top" line) n ind fuel
          (spec.columnSpec[p]?.getD (.withContent .center none)) (p + 1)).2.2 =
        .withContent (column (spec.columnSpec.drop p) 0).2.1 (column (spec.columnSpec.drop p) 0).2.2 ∧
      ∀ k, column (spec.columnSpec.drop p) (k + 1) =
        column (spec.columnSpec.drop (onlyLines spec (lineCss c!"top" line) n ind fuel
          (spec.columnSpec[p]?.getD (.withContent .center none)) (p + 1)).2.1) k := by
  intro fuel
  induction fuel with
  | zero =>
    intro p hp
    have h1 : spec.columnSpec[p]? = none := List.getElem?_eq_none (by omega)
    have h2 : spec.columnSpec.drop p = [] := List.drop_eq_nil_of_le (by omega)
    have h3 : spec.columnSpec.drop (p + 1) = [] := List.drop_eq_nil_of_le (by omega)
    simp only [onlyLines, h1, h2, Option.getD_none, column, List.map_nil, h3]
    exact ⟨.nil, trivial, fun k => trivial⟩
  | succ fuel ih =>
    intro p hp
    by_cases hlt : p < spec.columnSpec.length
    · have h1 : spec.columnSpec[p]? = some spec.columnSpec[p] := List.getElem?_eq_getElem hlt
      have h2 : spec.columnSpec.drop p = spec.columnSpec[p] :: spec.columnSpec.drop (p + 1) :=
        List.drop_eq_getElem_cons hlt
      rw [h1, h2, Option.getD_some]
      generalize spec.columnSpec[p] = e
      cases e with
      | withContent a b =>
        simp only [onlyLines, column, List.map_nil]
        exact ⟨.nil, trivial, fun k => trivial⟩
      | onlyLine l =>
        obtain ⟨ih1, ih2, ih3⟩ := ih (p + 1) (by omega)
        simp only [onlyLines, column, List.map_cons]
        refine ⟨?_, ih2, ih3⟩
        refine (((reads_lineCell spec line l).append (.blank (blank_newLineAndIndent n ind))).append ih1).congr
          ?_ ?_
        · simp only [List.append_assoc]
        · simp only [List.append_nil, List.cons_append, List.nil_append]
    · have h1 : spec.columnSpec[p]? = none := List.getElem?_eq_none (by omega)
      have h2 : spec.columnSpec.drop p = [] := List.drop_eq_nil_of_le (by omega)
      have h3 : spec.columnSpec.drop (p + 1) = [] := List.drop_eq_nil_of_le (by omega)
      simp only [onlyLines, h1, h2, Option.getD_none, column, List.map_nil, h3]
      exact ⟨.nil, trivial, fun k => trivial⟩

/-- Opening tag of a cell -/
def OpensCell (s : Str) (as : Attrs) : Prop :=
  ∃ t, s = '<' :: (c!"mtd" ++ (t ++ c!">")) ∧ AttrReads t as

theorem opensCell_style {css : Str} (h : PlainValue css) (hne : css ≠ []) :
    OpensCell (mtdOpenStyle ++ css ++ mtdCloseStyle) (styleAttr css) := by
  refine ⟨_, ?_, styleAttr_reads h⟩
  simp [if_neg hne, mtdOpenStyle, mtdCloseStyle]

theorem opensCell_simple {css : Str} (h : PlainValue css) :
    OpensCell (simpleMtd css) (styleAttr css) := by
  unfold simpleMtd
  cases css with
  | nil => exact ⟨[], rfl, .nil⟩
  | cons c cs => simpa using opensCell_style h (by simp)

theorem alignCss_plain (a : ColumnAlignment) : PlainValue (alignCss a) := by
  cases a <;> exact .of rfl

theorem append_ne_nil_right {a b : Str} (h : b ≠ []) : a ++ b ≠ [] := by
  intro hc; exact h (List.append_eq_nil_iff.1 hc).2

theorem borderTop_css (line : Option LineType) :
    rowBorderCss line = lineCss c!"top" line := by
  cases line with
  | none => rfl
  | some l => cases l <;> rfl

/-- What `write_next_mtd` writes: the cells which are only lines, and the opening tag of the cell -/
theorem writeNextMtd_reads {lay : Layout} {line : Option LineType} {i j : Nat} {g : ColumnGenerator}
    (h : GenAt lay line i j g) (n : Nat) (ind : Indentation) :
    ∃ a b, (g.writeNextMtd n ind).1 = a ++ b ∧ Reads a (lineCells lay line j) ∧
      OpensCell b (styleAttr (lineCss c!"top" line ++ cellCss lay i j)) ∧
      GenAt lay line i (j + 1) (g.writeNextMtd n ind).2 := by
  have hbl := Reads.blank (blank_newLineAndIndent n ind)
  have hline : PlainValue (lineCss c!"top" line) := lineCss_plain _ rfl _
  obtain ⟨ht, hr, hl, hc⟩ := h
  obtain ⟨typ, ci, ri, bt⟩ := g
  simp only at ht hr hl hc
  subst ht hr hl
  unfold ColumnGenerator.writeNextMtd
  simp only [borderTop_css]
  cases lay with
  | columns a =>
    replace hc : ci = j := hc
    have hg : GenAt (.columns a) bt ri (j + 1) ⟨_, ci + 1, ri, bt⟩ :=
      ⟨rfl, rfl, rfl, by show ci + 1 = j + 1; rw [hc]⟩
    cases a with
    | centered =>
      refine ⟨newLineAndIndent n ind, _, rfl, hbl, ?_, hg⟩
      simpa [cellCss] using opensCell_simple hline
    | cases =>
      refine ⟨newLineAndIndent n ind, _, by simp only [typOf, List.append_assoc]; rfl, hbl, ?_, hg⟩
      have := opensCell_style (css := lineCss c!"top" bt ++ cellCss (.columns .cases) ri j)
        (hline.append (((alignCss_plain _).append (.of rfl)).append (by split <;> exact .of rfl)))
        (append_ne_nil_right (by simp [cellCss]))
      rw [hc]
      have hpar : (!(j % 2 == 0)) = decide (j % 2 = 1) := by
        rcases Nat.mod_two_eq_zero_or_one j with h | h <;> simp [h]
      simp only [hpar]
      simpa [cellCss, alignCss, leftAlign, paddingRightZero] using this
    | alternating =>
      refine ⟨newLineAndIndent n ind, _, by simp only [typOf, List.append_assoc]; rfl, hbl, ?_, hg⟩
      rw [hc]
      by_cases hj : j % 2 = 0
      · have := opensCell_style (css := lineCss c!"top" bt ++ cellCss (.columns .alternating) ri j)
          (hline.append (by simp only [cellCss, if_pos hj]; exact (alignCss_plain _).append (.of rfl)))
          (append_ne_nil_right (by simp [cellCss, hj]))
        simpa [cellCss, alignCss, rightAlign, paddingRightZero, hj] using this
      · have := opensCell_style (css := lineCss c!"top" bt ++ cellCss (.columns .alternating) ri j)
          (hline.append (by simp only [cellCss, if_neg hj]; exact (alignCss_plain _).append (.of rfl)))
          (append_ne_nil_right (by simp [cellCss, hj]))
        simpa [cellCss, alignCss, leftAlign, paddingLeftZero, hj] using this
  | multline m =>
    replace hc : ci = j := hc
    have hg : GenAt (.multline m) bt ri (j + 1) ⟨_, ci + 1, ri, bt⟩ :=
      ⟨rfl, rfl, rfl, by show ci + 1 = j + 1; rw [hc]⟩
    simp only [typOf]
    by_cases h0 : ri = 0
    · simp only [if_pos h0]
      refine ⟨newLineAndIndent n ind, _, by simp only [List.append_assoc]; rfl, hbl, ?_, hg⟩
      have := opensCell_style (css := lineCss c!"top" bt ++ cellCss (.multline m) ri j)
        (hline.append (by simp only [cellCss, if_pos h0]; exact alignCss_plain _))
        (append_ne_nil_right (by simp [cellCss, h0, alignCss]))
      simpa [cellCss, alignCss, leftAlign, h0] using this
    · simp only [if_neg h0]
      by_cases h1 : ri + 1 = m
      · simp only [if_pos h1]
        refine ⟨newLineAndIndent n ind, _, by simp only [List.append_assoc]; rfl, hbl, ?_, hg⟩
        have := opensCell_style (css := lineCss c!"top" bt ++ cellCss (.multline m) ri j)
          (hline.append (by simp only [cellCss, if_neg h0, if_pos h1]; exact alignCss_plain _))
          (append_ne_nil_right (by simp [cellCss, h0, h1, alignCss]))
        simpa [cellCss, alignCss, rightAlign, h0, h1] using this
      · simp only [if_neg h1]
        refine ⟨newLineAndIndent n ind, _, rfl, hbl, ?_, hg⟩
        simpa [cellCss, h0, h1] using opensCell_simple hline
  | spec s =>
    replace hc : ∀ k, column s.columnSpec (j + k) = column (s.columnSpec.drop ci) k := hc
    obtain ⟨o1, o2, o3⟩ := onlyLines_reads s bt n ind (s.columnSpec.length + 1) ci (by omega)
    have hj : column s.columnSpec j = column (s.columnSpec.drop ci) 0 := hc 0
    simp only [typOf]
    generalize onlyLines s (lineCss c!"top" bt) n ind (s.columnSpec.length + 1)
      (s.columnSpec[ci]?.getD (.withContent .center none)) (ci + 1) = res at o1 o2 o3 ⊢
    obtain ⟨lines, idx, entry⟩ := res
    simp only at o1 o2 o3 ⊢
    subst o2
    rw [← hj] at o1
    have hg : GenAt (.spec s) bt ri (j + 1) ⟨.custom s, idx, ri, bt⟩ := by
      refine ⟨rfl, rfl, rfl, fun k => ?_⟩
      rw [show j + 1 + k = j + (k + 1) by omega, hc]
      exact o3 k
    have hlines : Reads (newLineAndIndent n ind ++ lines) (lineCells (.spec s) bt j) := hbl.append o1
    simp only [← hj]
    by_cases hsimple : ((column s.columnSpec j).2.1 == .center && (column s.columnSpec j).2.2.isNone &&
        !s.isSub) = true
    · simp only [if_pos hsimple]
      refine ⟨_, _, rfl, hlines, ?_, hg⟩
      simp only [Bool.and_eq_true, beq_iff_eq, Option.isNone_iff_eq_none, Bool.not_eq_true'] at hsimple
      simpa [cellCss, hsimple, alignCss, lineCss] using opensCell_simple hline
    · simp only [if_neg hsimple]
      refine ⟨_, _, by simp only [List.append_assoc]; rw [← List.append_assoc], hlines, ?_, hg⟩
      have hp : PlainValue (cellCss (.spec s) ri j) := by
        simp only [cellCss]
        refine ((alignCss_plain _).append (lineCss_plain _ rfl _)).append ?_
        split <;> exact .of rfl
      have hne : cellCss (.spec s) ri j ≠ [] := by
        intro h0
        apply hsimple
        simp only [cellCss, List.append_eq_nil_iff] at h0
        obtain ⟨⟨h1, h2⟩, h3⟩ := h0
        simp only [Bool.and_eq_true, beq_iff_eq, Option.isNone_iff_eq_none, Bool.not_eq_true']
        refine ⟨⟨?_, ?_⟩, ?_⟩
        · cases hh : (column s.columnSpec j).2.1 <;> simp [hh, alignCss] at h1 ⊢
        · cases hh : (column s.columnSpec j).2.2 with
          | none => rfl
          | some l => simp [hh, lineCss] at h2
        · cases hh : s.isSub with
          | false => rfl
          | true => simp [hh] at h3
      have := opensCell_style (hline.append hp) (append_ne_nil_right hne)
      simp only [cellCss] at this ⊢
      generalize column s.columnSpec j = col at this ⊢
      generalize lineCss c!"top" bt = top at this ⊢
      obtain ⟨ls, al, br⟩ := col
      simp only at this ⊢
      cases al <;> rcases br with _ | (_ | _) <;>
        simpa [paddingTopBottomZero, leftAlign, rightAlign, borderRight, lineCss, alignCss, lineName] using this

/-! ### Equation numbers -/

theorem dummy_reads (nc : NumberColums) (n : Nat) (ind : Indentation) :
    Reads (nc.initialDummyColumn n ind) [.elem c!"mtd" [(c!"style", numberWidth nc)] []] := by
  have hp : PlainValue (numberWidth nc) := by cases nc <;> exact .of rfl
  refine ((Reads.blank (blank_newLineAndIndent n ind)).append (Reads.empty (n := c!"mtd") rfl rfl
    (AttrReads.str (a := c!"style") rfl hp) (nodup_style _))).congr ?_ rfl
  unfold NumberColums.initialDummyColumn NumberColums.dummyColumnOpening
  cases nc <;> simp [numberWidth]

theorem tokenReads_tag (t : EquationTag) :
    TokenReads (if t.parenthesized then c!"(" ++ escapeHtml t.text ++ c!")" else escapeHtml t.text)
      (txt (tagText t)) := by
  unfold tagText
  split
  · intro top below ht
    refine ⟨c!"(" ++ t.text ++ c!")", top, ?_, flush_txt ht _⟩
    refine xrun_app (xrun_app (t := ⟨.text c!"(", top, below⟩) rfl (xrun_escape t.text _ top below)) ?_
    rw [xrun_plain c!")" (.of rfl)]
  · exact .escape _

theorem equationNum_reads {label : Option RowLabelInfo} (hl : LabelOk label) {idPrefix : Str}
    (hp : PlainValue idPrefix) (nc : NumberColums) (n m : Nat) (ind : Indentation) :
    Reads (writeEquationNum n m label nc ind idPrefix) [numberCell idPrefix nc label] := by
  cases label with
  | none => exact dummy_reads nc n ind
  | some info =>
    have hw : PlainValue (numberWidth nc ++ c!";" ++ alignCss .right) := by
      cases nc <;> exact .of rfl
    have hattr : AttrReads
        (c!" style=\"" ++ ((numberWidth nc ++ c!";" ++ alignCss .right) ++ c!"\"") ++
          (match info.linkTarget with
            | some t => c!" id=\"" ++ (idPrefix ++ percentEncode t ++ c!"\"")
            | none => []))
        ((c!"style", numberWidth nc ++ c!";" ++ alignCss .right) ::
          optAttr c!"id" (info.linkTarget.map (equationId idPrefix))) := by
      refine AttrReads.append (as := [_]) (AttrReads.str (a := c!"style") rfl hw) ?_
      cases hi : info.linkTarget with
      | none => exact .nil
      | some t =>
        exact AttrReads.str (a := c!"id") rfl (hp.append (plain_percent (hl info rfl t hi)))
    have hd : (((c!"style", numberWidth nc ++ c!";" ++ alignCss .right) ::
          optAttr c!"id" (info.linkTarget.map (equationId idPrefix))).map Prod.fst).Nodup := by
      cases info.linkTarget <;> simp [optAttr]
    have hinner : Reads (newLineAndIndent m ind ++ ('<' :: (c!"mtext" ++ ([] ++ (c!">" ++
        ((if info.tag.parenthesized then c!"(" ++ escapeHtml info.tag.text ++ c!")"
          else escapeHtml info.tag.text) ++ ('<' :: '/' :: (c!"mtext" ++ c!">"))))))) ++
        newLineAndIndent n ind) [el c!"mtext" (txt (tagText info.tag))] :=
      (((Reads.blank (blank_newLineAndIndent m ind)).append
        (Reads.token rfl rfl .nil (by simp) (tokenReads_tag info.tag))).append
        (Reads.blank (blank_newLineAndIndent n ind)))
    refine ((Reads.blank (blank_newLineAndIndent n ind)).append
      (Reads.elem (n := c!"mtd") rfl rfl hattr hd hinner)).congr ?_ rfl
    unfold writeEquationNum NumberColums.dummyColumnOpening
    obtain ⟨⟨text, par⟩, lt⟩ := info
    cases nc <;> cases lt <;> cases par <;>
      simp [numberWidth, alignCss, rightAlign]

end Verif

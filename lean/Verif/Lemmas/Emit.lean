import Verif.Lemmas.EmitTable
/-! The emitter writes the tree that a node stands for. -/
namespace Verif
open Verif.Model Verif.Spec

theorem Out.append_s (a b : Out) : (a ++ b).s = a.s ++ b.s := rfl
theorem lit_s (s : Str) : (lit s).s = s := rfl

/-- Several notations for the same element, with layout in front of the closing tag -/
theorem Reads.block {n at_ inner ws : Str} {as : Attrs} {kids : List Xml} (hn : isName n = true)
    (ht : notToken n = true) (ha : AttrReads at_ as) (hd : (as.map Prod.fst).Nodup)
    (hi : Reads inner kids) (hw : Blank ws) :
    Reads ('<' :: (n ++ (at_ ++ (c!">" ++ (inner ++ (ws ++ ('<' :: '/' :: (n ++ c!">"))))))))
      [.elem n as kids] :=
  (Reads.elem hn ht ha hd (hi.append (.blank hw))).congr (by simp) (by simp)

/-! ### The rows of a table -/

theorem rowsOf_shape (last : Option RowLabelInfo) (line : Option LineType) (items : List Item) :
    ∃ label c cs rs, rowsOf last line items = ⟨line, label, c :: cs⟩ :: rs := by
  induction items generalizing line with
  | nil => exact ⟨last, [], [], [], rfl⟩
  | cons it rest ih =>
    cases it with
    | node x =>
      obtain ⟨l, c, cs, rs, h⟩ := ih line
      exact ⟨l, x :: c, cs, rs, by simp [rowsOf, h, onFirst, TRow.cons]⟩
    | nextCell =>
      obtain ⟨l, c, cs, rs, h⟩ := ih line
      exact ⟨l, [], c :: cs, rs, by simp [rowsOf, h, onFirst, TRow.consCell]⟩
    | nextRow label line' => exact ⟨label, [], [], rowsOf last line' rest, rfl⟩

/-- The last cell of a row: the equation number, if there is one -/
def numberCells (idPrefix : Str) (nums : Option NumberColums) (label : Option RowLabelInfo) : List Xml :=
  match nums with
  | none => []
  | some n => [numberCell idPrefix n label]

/-- The first cell of a row -/
def dummyCells (nums : Option NumberColums) : List Xml :=
  match nums with
  | none => []
  | some n => [.elem c!"mtd" [(c!"style", numberWidth n)] []]

theorem rowsXml_cons (idPrefix : Str) (lay : Layout) (nums : Option NumberColums) (i : Nat) (r : TRow)
    (rs : List TRow) :
    rowsXml idPrefix lay nums i (r :: rs) =
      el c!"mtr" (dummyCells nums ++ (cellsXml lay r.line i 0 r.cells ++
        numberCells idPrefix nums r.label)) :: rowsXml idPrefix lay nums (i + 1) rs := by
  cases nums <;> simp [rowsXml, dummyCells, numberCells]

/-- What has been read at the end of a table, when a cell with attributes `as` and content `ks` is
open in a row with cells `mk`. -/
def finishRows (idPrefix : Str) (lay : Layout) (nums : Option NumberColums) (i j : Nat) (as : Attrs)
    (ks mk : List Xml) : List TRow → List Xml
  | [] => []
  | r :: rs =>
    el c!"mtr" (mk ++ (.elem c!"mtd" as (ks ++ r.cells.headD []) ::
      (cellsXml lay r.line i (j + 1) r.cells.tail ++ numberCells idPrefix nums r.label))) ::
      rowsXml idPrefix lay nums (i + 1) rs

def dummyText (nums : Option NumberColums) (n : Nat) (ind : Indentation) : Str :=
  match nums with
  | some nc => nc.initialDummyColumn n ind
  | none => []

def numberText (cfg : EmitCfg) (nums : Option NumberColums) (n m : Nat) (label : Option RowLabelInfo) : Str :=
  match nums with
  | some nc => writeEquationNum n m label nc cfg.indentation cfg.idPrefix
  | none => []

theorem dummyText_reads (nums : Option NumberColums) (n : Nat) (ind : Indentation) :
    Reads (dummyText nums n ind) (dummyCells nums) := by
  cases nums with
  | none => exact .nil
  | some nc => exact dummy_reads nc n ind

theorem numberText_reads {cfg : EmitCfg} (hc : CfgOk cfg) (nums : Option NumberColums) (n m : Nat)
    {label : Option RowLabelInfo} (hl : LabelOk label) :
    Reads (numberText cfg nums n m label) (numberCells cfg.idPrefix nums label) := by
  cases nums with
  | none => exact .nil
  | some nc => exact equationNum_reads hl hc.idPrefix nc n m cfg.indentation

/-- The end of a cell, the number and the end of a row -/
theorem closeRow {cfg : EmitCfg} (hc : CfgOk cfg) (nums : Option NumberColums) (n m k : Nat)
    {label : Option RowLabelInfo} (hl : LabelOk label)
    {ws : Str} {as : Attrs} {ks mk : List Xml} {tf : Frame} {below : List Frame}
    (hw : Blank ws) (ht : inToken tf below = false) :
    xrun ⟨.text ws, ⟨c!"mtd", as, ks⟩, ⟨c!"mtr", [], mk⟩ :: tf :: below⟩
      (newLineAndIndent n cfg.indentation ++ c!"</mtd>" ++ numberText cfg nums n m label ++
        (newLineAndIndent k cfg.indentation ++ c!"</mtr>")) =
      some ⟨.text [], tf.add [el c!"mtr" (mk ++ (.elem c!"mtd" as ks :: numberCells cfg.idPrefix nums label))],
        below⟩ := by
  have ht1 : ∀ mk, inToken ⟨c!"mtr", [], mk⟩ (tf :: below) = false := fun mk => by
    rw [inToken_push rfl, ht]
  have ht2 : inToken ⟨c!"mtd", as, ks⟩ (⟨c!"mtr", [], mk⟩ :: tf :: below) = false := by
    rw [inToken_push rfl, ht1]
  obtain ⟨w, hw', hx⟩ := (numberText_reads hc nums n m hl) [] ⟨c!"mtr", [], mk ++ [.elem c!"mtd" as ks]⟩
    (tf :: below) .nil (ht1 _)
  have h1 := xrun_close c!"mtd" rfl (flush_blank (hw.append (blank_newLineAndIndent n cfg.indentation)) ht2) rfl
  have h2 := xrun_close c!"mtr" rfl (flush_blank (hw'.append (blank_newLineAndIndent k cfg.indentation))
    (ht1 ((mk ++ [.elem c!"mtd" as ks]) ++ numberCells cfg.idPrefix nums label))) rfl
  refine xrun_app (xrun_app (xrun_app (xrun_blank _ (blank_newLineAndIndent n _) ..) h1) hx)
    (xrun_app (xrun_blank _ (blank_newLineAndIndent k _) ..) (h2.trans ?_))
  simp [el]

/-- The lines in front of a cell and its opening tag -/
theorem openCell {lay : Layout} {line : Option LineType} {i j : Nat} {g : ColumnGenerator}
    (h : GenAt lay line i j g) (n : Nat) (ind : Indentation) {ws : Str} (hw : Blank ws)
    {mk : List Xml} {tf : Frame} {below : List Frame} (ht : inToken tf below = false) :
    xrun ⟨.text ws, ⟨c!"mtr", [], mk⟩, tf :: below⟩ (g.writeNextMtd n ind).1 =
      some ⟨.text [], ⟨c!"mtd", styleAttr (lineCss c!"top" line ++ cellCss lay i j), []⟩,
        ⟨c!"mtr", [], mk ++ lineCells lay line j⟩ :: tf :: below⟩ := by
  obtain ⟨a, b, hab, hr, ⟨t, hb, hat⟩, _⟩ := writeNextMtd_reads h n ind
  have ht1 : ∀ mk, inToken ⟨c!"mtr", [], mk⟩ (tf :: below) = false := fun mk => by
    rw [inToken_push rfl, ht]
  rw [hab]
  obtain ⟨w, hw', hx⟩ := hr ws ⟨c!"mtr", [], mk⟩ (tf :: below) hw (ht1 _)
  refine xrun_app hx ?_
  rw [hb, ← List.cons_append]
  refine xrun_app (xrun_lt (flush_blank hw' (ht1 _)) c!"mtd" rfl) ?_
  obtain ⟨m, hm, hr'⟩ := hat (.name c!"mtd") c!"mtd" [] _ (tf :: below) (.name _)
    (by simpa using nodup_sub (styleAttr_sub _) (by simp))
  exact xrun_app hr' (xrun_gt hm _ _)

/-- `<mtr>` and the empty first cell -/
theorem openRow (nums : Option NumberColums) (k n : Nat) (ind : Indentation) {ws : Str} (hw : Blank ws)
    {tf : Frame} {below : List Frame} (ht : inToken tf below = false) :
    ∃ ws', Blank ws' ∧
    xrun ⟨.text ws, tf, below⟩ (newLineAndIndent k ind ++ c!"<mtr>" ++ dummyText nums n ind) =
      some ⟨.text ws', ⟨c!"mtr", [], dummyCells nums⟩, tf :: below⟩ := by
  have ht1 : inToken ⟨c!"mtr", [], []⟩ (tf :: below) = false := by rw [inToken_push rfl, ht]
  obtain ⟨w, hw', hx⟩ := dummyText_reads nums n ind [] ⟨c!"mtr", [], []⟩ (tf :: below) .nil ht1
  refine ⟨w, hw', ?_⟩
  refine xrun_app (xrun_app (xrun_blank _ (blank_newLineAndIndent k _) ..) ?_) hx
  show xrun _ (('<' :: c!"mtr") ++ c!">") = _
  exact xrun_app (xrun_lt (flush_blank (hw.append (blank_newLineAndIndent k _)) ht) c!"mtr" rfl)
    (xrun_gt (.name _) _ _)

/-- The loop over the content of a table, read from inside of a cell up to the end of the last row -/
def CellsRead (cfg : EmitCfg) (lay : Layout) (nums : Option NumberColums) (last : Option RowLabelInfo)
    (k n m : Nat) (content : List Node) : Prop :=
  ∀ line i j g, GenAt lay line i (j + 1) g → ∀ ws as ks mk tf below, Blank ws → inToken tf below = false →
    ∃ ws', Blank ws' ∧ xrun ⟨.text ws, ⟨c!"mtd", as, ks⟩, ⟨c!"mtr", [], mk⟩ :: tf :: below⟩
      ((emitCells cfg k n m content g nums).s ++
        (newLineAndIndent n cfg.indentation ++ c!"</mtd>" ++ numberText cfg nums n m last ++
          (newLineAndIndent k cfg.indentation ++ c!"</mtr>"))) =
      some ⟨.text ws', tf.add (finishRows cfg.idPrefix lay nums i j as ks mk
        (rowsOf last line (toItems cfg content))), below⟩

theorem cells_nil {cfg : EmitCfg} (hc : CfgOk cfg) (lay : Layout) (nums : Option NumberColums)
    {last : Option RowLabelInfo} (hl : LabelOk last) (k n m : Nat) :
    CellsRead cfg lay nums last k n m [] := by
  intro line i j g hg ws as ks mk tf below hw ht
  refine ⟨[], .nil, ?_⟩
  rw [show (emitCells cfg k n m [] g nums).s = [] by simp [emitCells, lit], List.nil_append,
    closeRow hc nums n m k hl hw ht]
  simp [toItems, rowsOf, finishRows, cellsXml, rowsXml]

theorem cells_column {cfg : EmitCfg} {lay : Layout} {nums : Option NumberColums}
    {last : Option RowLabelInfo} {k n m : Nat} {rest : List Node}
    (ih : CellsRead cfg lay nums last k n m rest) :
    CellsRead cfg lay nums last k n m (.columnSeparator :: rest) := by
  intro line i j g hg ws as ks mk tf below hw ht
  obtain ⟨_, _, _, _, _, hg'⟩ := writeNextMtd_reads hg n cfg.indentation
  have ht1 : ∀ mk, inToken ⟨c!"mtr", [], mk⟩ (tf :: below) = false := fun mk => by
    rw [inToken_push rfl, ht]
  have ht2 : inToken ⟨c!"mtd", as, ks⟩ (⟨c!"mtr", [], mk⟩ :: tf :: below) = false := by
    rw [inToken_push rfl, ht1]
  obtain ⟨w, hw', hx⟩ := ih line i (j + 1) _ hg' [] (styleAttr (lineCss c!"top" line ++ cellCss lay i (j + 1)))
    [] (mk ++ [.elem c!"mtd" as ks] ++ lineCells lay line (j + 1)) tf below .nil ht
  refine ⟨w, hw', ?_⟩
  have hs : (emitCells cfg k n m (.columnSeparator :: rest) g nums).s =
      (newLineAndIndent n cfg.indentation ++ c!"</mtd>") ++ ((g.writeNextMtd n cfg.indentation).1 ++
        (emitCells cfg k n m rest (g.writeNextMtd n cfg.indentation).2 nums).s) := by
    simp only [emitCells, Out.append_s, lit_s, List.append_assoc]
  rw [hs, List.append_assoc, List.append_assoc (g.writeNextMtd n cfg.indentation).1]
  refine xrun_app (xrun_app (xrun_blank _ (blank_newLineAndIndent n _) ..) (xrun_close c!"mtd" rfl
    (flush_blank (hw.append (blank_newLineAndIndent n _)) ht2) rfl)) ?_
  refine xrun_app (openCell (mk := mk ++ [Xml.elem c!"mtd" as ks]) hg n cfg.indentation .nil ht) ?_
  rw [hx]
  obtain ⟨label, c, cs, rs, hrow⟩ := rowsOf_shape last line (toItems cfg rest)
  simp [toItems, rowsOf, hrow, finishRows, onFirst, TRow.consCell, cellsXml]

theorem cells_row {cfg : EmitCfg} (hc : CfgOk cfg) {lay : Layout} {nums : Option NumberColums}
    {last label : Option RowLabelInfo} (hl : LabelOk label) {k n m : Nat} {rest : List Node}
    {line' : Option LineType} (ih : CellsRead cfg lay nums last k n m rest) :
    CellsRead cfg lay nums last k n m (.rowSeparator label line' :: rest) := by
  intro line i j g hg ws as ks mk tf below hw ht
  have hg0 : GenAt lay line' (i + 1) 0 (g.resetToNewRow.setRowBorderTop line') := hg.nextRow
  obtain ⟨_, _, _, _, _, hg'⟩ := writeNextMtd_reads hg0 n cfg.indentation
  have hcl := closeRow hc nums n m k hl (as := as) (ks := ks) (mk := mk) hw ht
  generalize htf : tf.add [el c!"mtr" (mk ++ (.elem c!"mtd" as ks :: numberCells cfg.idPrefix nums label))]
    = tf' at hcl
  have ht' : inToken tf' below = false := by rw [← htf, inToken_add, ht]
  obtain ⟨w1, hw1, hop⟩ := openRow nums k n cfg.indentation (ws := []) .nil ht'
  obtain ⟨w, hw', hx⟩ := ih line' (i + 1) 0 _ hg' [] (styleAttr (lineCss c!"top" line' ++ cellCss lay (i + 1) 0))
    [] (dummyCells nums ++ lineCells lay line' 0) tf' below .nil ht'
  refine ⟨w, hw', ?_⟩
  have hs : (emitCells cfg k n m (.rowSeparator label line' :: rest) g nums).s =
      (newLineAndIndent n cfg.indentation ++ c!"</mtd>" ++ numberText cfg nums n m label ++
        (newLineAndIndent k cfg.indentation ++ c!"</mtr>")) ++
      ((newLineAndIndent k cfg.indentation ++ c!"<mtr>" ++ dummyText nums n cfg.indentation) ++
      (((g.resetToNewRow.setRowBorderTop line').writeNextMtd n cfg.indentation).1 ++
        (emitCells cfg k n m rest
          ((g.resetToNewRow.setRowBorderTop line').writeNextMtd n cfg.indentation).2 nums).s)) := by
    simp only [emitCells, Out.append_s, lit_s, List.append_assoc, numberText, dummyText]
    cases nums <;> rfl
  rw [hs, List.append_assoc, List.append_assoc (newLineAndIndent k cfg.indentation ++ _ ++ _),
    List.append_assoc (ColumnGenerator.writeNextMtd _ _ _).1]
  refine xrun_app hcl (xrun_app hop (xrun_app (openCell hg0 n cfg.indentation hw1 ht') ?_))
  rw [hx, ← htf, Frame.add_add]
  obtain ⟨label', c, cs, rs, hrow⟩ := rowsOf_shape last line' (toItems cfg rest)
  simp [toItems, rowsOf, hrow, finishRows, cellsXml, rowsXml_cons]

theorem cells_node {cfg : EmitCfg} {lay : Layout} {nums : Option NumberColums}
    {last : Option RowLabelInfo} {k n m : Nat} {node : Node} {rest : List Node}
    (hsep : isSeparator node = false) (hn : Reads (emit cfg node m).s [toXml cfg node])
    (ih : CellsRead cfg lay nums last k n m rest) : CellsRead cfg lay nums last k n m (node :: rest) := by
  intro line i j g hg ws as ks mk tf below hw ht
  have ht2 : inToken ⟨c!"mtd", as, ks⟩ (⟨c!"mtr", [], mk⟩ :: tf :: below) = false := by
    rw [inToken_push rfl, inToken_push rfl, ht]
  obtain ⟨w1, hw1, hx1⟩ := hn ws _ _ hw ht2
  obtain ⟨w, hw', hx⟩ := ih line i j g hg w1 as (ks ++ [toXml cfg node]) mk tf below hw1 ht
  refine ⟨w, hw', ?_⟩
  have hs : (emitCells cfg k n m (node :: rest) g nums).s =
      (emit cfg node m).s ++ (emitCells cfg k n m rest g nums).s := by
    cases node <;> first | rfl | simp [isSeparator] at hsep
  have hi : toItems cfg (node :: rest) = .node (toXml cfg node) :: toItems cfg rest := by
    cases node <;> first | rfl | simp [isSeparator] at hsep
  rw [hs, List.append_assoc]
  refine xrun_app hx1 ?_
  refine hx.trans ?_
  obtain ⟨label, c, cs, rs, hrow⟩ := rowsOf_shape last line (toItems cfg rest)
  simp [hi, rowsOf, hrow, finishRows, onFirst, TRow.cons]

/-- A whole table -/
theorem table_reads {cfg : EmitCfg} {lay : Layout} {nums : Option NumberColums} {last : Option RowLabelInfo}
    {base child : Nat} {content : List Node} {at_ : Str} {as : Attrs} (ha : AttrReads at_ as)
    (hd : (as.map Prod.fst).Nodup) (h : ∀ n m, CellsRead cfg lay nums last child n m content) :
    Reads (c!"<mtable" ++ at_ ++ c!">" ++
      (emitTable cfg base child (fun i2 i3 g => emitCells cfg child i2 i3 content g nums)
        (.new (typOf lay)) nums last).s)
      [.elem c!"mtable" as (rowsXml cfg.idPrefix lay nums 0 (rowsOf last none (toItems cfg content)))] := by
  simp only [emitTable]
  generalize (if base > 0 then child + 1 else 0) = n
  generalize (if base > 0 then n + 1 else 0) = m
  have hbody : Reads
      (newLineAndIndent child cfg.indentation ++ c!"<mtr>" ++ dummyText nums n cfg.indentation ++
      (((ColumnGenerator.new (typOf lay)).writeNextMtd n cfg.indentation).1 ++
      ((emitCells cfg child n m content ((ColumnGenerator.new (typOf lay)).writeNextMtd n cfg.indentation).2 nums).s ++
        (newLineAndIndent n cfg.indentation ++ c!"</mtd>" ++ numberText cfg nums n m last ++
          (newLineAndIndent child cfg.indentation ++ c!"</mtr>")))))
      (rowsXml cfg.idPrefix lay nums 0 (rowsOf last none (toItems cfg content))) := by
    intro ws top below hw ht
    obtain ⟨w1, hw1, hop⟩ := openRow nums child n cfg.indentation hw ht
    obtain ⟨_, _, _, _, _, hg'⟩ := writeNextMtd_reads (GenAt.new lay) n cfg.indentation
    obtain ⟨w, hw', hx⟩ := h n m none 0 0 _ hg' [] (styleAttr (lineCss c!"top" none ++ cellCss lay 0 0)) []
      (dummyCells nums ++ lineCells lay none 0) top below .nil ht
    refine ⟨w, hw', xrun_app hop (xrun_app (openCell (GenAt.new lay) n cfg.indentation hw1 ht) ?_)⟩
    rw [hx]
    obtain ⟨label, c, cs, rs, hrow⟩ := rowsOf_shape last none (toItems cfg content)
    simp [hrow, finishRows, rowsXml_cons, cellsXml]
  refine (Reads.block (n := c!"mtable") rfl rfl ha hd hbody (blank_newLineAndIndent base cfg.indentation)).congr ?_ rfl
  simp only [Out.append_s, lit_s, List.append_assoc, dummyText, numberText]
  cases nums <;> simp only [List.cons_append, List.nil_append]

end Verif

import Verif.Spec.Tree
/-! The trees of the specification have the shape of MathML. -/
namespace Verif
open Verif.Model Verif.Spec

/-- Fine as content of anything which is not a table or a row -/
def Fine (x : Xml) : Prop := shaped x ∧ x.name ≠ c!"mtr" ∧ x.name ≠ c!"mtd"

def AllFine (xs : List Xml) : Prop := ∀ x ∈ xs, Fine x

theorem shapedAll_iff (xs : List Xml) : shapedAll xs ↔ ∀ x ∈ xs, shaped x := by
  induction xs with
  | nil => simp [shapedAll]
  | cons x xs ih => simp [shapedAll, ih]

theorem AllFine.nil : AllFine [] := by intro x h; cases h
theorem AllFine.cons {x : Xml} {xs : List Xml} (h : Fine x) (h' : AllFine xs) : AllFine (x :: xs) := by
  intro y hy
  rcases List.mem_cons.1 hy with rfl | hy
  · exact h
  · exact h' y hy
theorem AllFine.append {xs ys : List Xml} (h : AllFine xs) (h' : AllFine ys) : AllFine (xs ++ ys) := by
  intro y hy
  rcases List.mem_append.1 hy with hy | hy
  · exact h y hy
  · exact h' y hy
theorem AllFine.one {x : Xml} (h : Fine x) : AllFine [x] := .cons h .nil

theorem fine_text (s : Str) : Fine (.text s) := ⟨trivial, by simp [Xml.name], by simp [Xml.name]⟩

theorem allFine_txt (s : Str) : AllFine (txt s) := by
  unfold txt; split
  · exact .nil
  · exact .one (fine_text s)

/-- An element which is not a table, row or cell -/
theorem Fine.elem {n : Str} {as : Attrs} {kids : List Xml}
    (h1 : n ≠ c!"mtr" ∧ n ≠ c!"mtd" ∧ n ≠ c!"mtable") (h2 : ∀ k, arity n = some k → kids.length = k)
    (h : AllFine kids) : Fine (.elem n as kids) := by
  refine ⟨⟨h2, fun x hx => ?_, (shapedAll_iff kids).2 fun x hx => (h x hx).1⟩, h1.1, h1.2.1⟩
  obtain ⟨_, hr, hd⟩ := h x hx
  simp [mayContain, h1.1, h1.2.2, hr, hd]

theorem Fine.plain {n : Str} {as : Attrs} {kids : List Xml}
    (h1 : (n ≠ c!"mtr" ∧ n ≠ c!"mtd" ∧ n ≠ c!"mtable") ∧ arity n = none)
    (h : AllFine kids) : Fine (.elem n as kids) :=
  .elem h1.1 (by intro k hk; rw [h1.2] at hk; cases hk) h

theorem Fine.fixed {n : Str} {as : Attrs} {kids : List Xml} (k : Nat)
    (h1 : (n ≠ c!"mtr" ∧ n ≠ c!"mtd" ∧ n ≠ c!"mtable") ∧ arity n = some k) (hk : kids.length = k)
    (h : AllFine kids) : Fine (.elem n as kids) :=
  .elem h1.1 (by intro k' hk'; rw [h1.2] at hk'; cases hk'; exact hk) h

/-! ### Tables -/

def ItemFine : Item → Prop
  | .node x => Fine x
  | _ => True

theorem rowsOf_fine (last : Option RowLabelInfo) (items : List Item) (h : ∀ it ∈ items, ItemFine it) :
    ∀ line, ∀ r ∈ rowsOf last line items, ∀ c ∈ r.cells, AllFine c := by
  induction items with
  | nil =>
    intro line r hr c hc
    simp only [rowsOf, List.mem_singleton] at hr
    subst hr
    simp only [List.mem_singleton] at hc
    subst hc
    exact .nil
  | cons it rest ih =>
    intro line
    have ih' := ih (fun it hit => h it (List.mem_cons_of_mem _ hit))
    have h0 := h it (List.mem_cons_self ..)
    cases it with
    | node x =>
      have := ih' line
      simp only [rowsOf]
      cases hr : rowsOf last line rest with
      | nil => intro r hr'; simp [onFirst] at hr'
      | cons r rs =>
        rw [hr] at this
        intro r' hr' c hc
        simp only [onFirst, List.mem_cons] at hr'
        rcases hr' with rfl | hr'
        · unfold TRow.cons at hc
          cases hcs : r.cells with
          | nil =>
            rw [hcs] at hc
            simp only [List.mem_singleton] at hc
            subst hc
            exact .one h0
          | cons d ds =>
            rw [hcs] at hc
            simp only [List.mem_cons] at hc
            have hd := this r (by simp)
            rw [hcs] at hd
            rcases hc with rfl | hc
            · exact .cons h0 (hd d (by simp))
            · exact hd c (by simp [hc])
        · exact this r' (by simp [hr']) c hc
    | nextCell =>
      have := ih' line
      simp only [rowsOf]
      cases hr : rowsOf last line rest with
      | nil => intro r hr'; simp [onFirst] at hr'
      | cons r rs =>
        rw [hr] at this
        intro r' hr' c hc
        simp only [onFirst, List.mem_cons] at hr'
        rcases hr' with rfl | hr'
        · simp only [TRow.consCell, List.mem_cons] at hc
          rcases hc with rfl | hc
          · exact .nil
          · exact this r (by simp) c hc
        · exact this r' (by simp [hr']) c hc
    | nextRow label line' =>
      intro r hr c hc
      simp only [rowsOf, List.mem_cons] at hr
      rcases hr with rfl | hr
      · simp only [List.mem_singleton] at hc
        subst hc
        exact .nil
      · exact ih' line' r hr c hc

/-- A cell -/
def CellFine (x : Xml) : Prop := shaped x ∧ x.name = c!"mtd"

theorem cellFine_elem {as : Attrs} {kids : List Xml} (h : AllFine kids) : CellFine (.elem c!"mtd" as kids) := by
  refine ⟨⟨by intro k hk; simp [arity] at hk, fun x hx => ?_, (shapedAll_iff kids).2 fun x hx => (h x hx).1⟩, rfl⟩
  obtain ⟨_, hr, hd⟩ := h x hx
  simp [mayContain, hr, hd]

theorem lineCells_fine (lay : Layout) (line : Option LineType) (j : Nat) : ∀ x ∈ lineCells lay line j, CellFine x := by
  intro x hx
  unfold lineCells at hx
  split at hx
  · simp only [List.mem_map] at hx
    obtain ⟨l, _, rfl⟩ := hx
    exact cellFine_elem .nil
  · cases hx

theorem cellsXml_fine (lay : Layout) (line : Option LineType) (i : Nat) (cells : List (List Xml))
    (h : ∀ c ∈ cells, AllFine c) : ∀ j, ∀ x ∈ cellsXml lay line i j cells, CellFine x := by
  induction cells with
  | nil => intro j x hx; cases hx
  | cons c cs ih =>
    intro j x hx
    simp only [cellsXml, List.mem_append, List.mem_cons] at hx
    rcases hx with hx | rfl | hx
    · exact lineCells_fine _ _ _ x hx
    · exact cellFine_elem (h c (by simp))
    · exact ih (fun c hc => h c (by simp [hc])) (j + 1) x hx

theorem numberCell_fine (idPrefix : Str) (n : NumberColums) (l : Option RowLabelInfo) :
    CellFine (numberCell idPrefix n l) := by
  cases l with
  | none => exact cellFine_elem .nil
  | some l => exact cellFine_elem (.one (.plain ⟨by decide, by decide⟩ (allFine_txt _)))

theorem rowsXml_fine (idPrefix : Str) (lay : Layout) (nums : Option NumberColums) (rows : List TRow)
    (h : ∀ r ∈ rows, ∀ c ∈ r.cells, AllFine c) :
    ∀ i, ∀ x ∈ rowsXml idPrefix lay nums i rows, shaped x ∧ x.name = c!"mtr" := by
  induction rows with
  | nil => intro i x hx; cases hx
  | cons r rs ih =>
    intro i x hx
    simp only [rowsXml, List.mem_cons] at hx
    rcases hx with rfl | hx
    · have hcells : ∀ y ∈ (match nums with
          | none => cellsXml lay r.line i 0 r.cells
          | some n => .elem c!"mtd" [(c!"style", numberWidth n)] [] ::
            (cellsXml lay r.line i 0 r.cells ++ [numberCell idPrefix n r.label])), CellFine y := by
        intro y hy
        cases nums with
        | none => exact cellsXml_fine _ _ _ _ (h r (by simp)) _ y hy
        | some n =>
          simp only [List.mem_cons, List.mem_append, List.not_mem_nil, or_false] at hy
          rcases hy with rfl | hy | rfl
          · exact cellFine_elem .nil
          · exact cellsXml_fine _ _ _ _ (h r (by simp)) _ y hy
          · exact numberCell_fine _ _ _
      refine ⟨⟨by intro k hk; simp [arity] at hk, fun y hy => ?_,
        (shapedAll_iff _).2 fun y hy => (hcells y hy).1⟩, rfl⟩
      rw [(hcells y hy).2]; rfl
    · exact ih (fun r hr => h r (by simp [hr])) (i + 1) x hx

theorem table_fine (idPrefix : Str) (lay : Layout) (nums : Option NumberColums) (last : Option RowLabelInfo)
    (items : List Item) (h : ∀ it ∈ items, ItemFine it) (as : Attrs) :
    Fine (.elem c!"mtable" as (rowsXml idPrefix lay nums 0 (rowsOf last none items))) := by
  have hr := rowsXml_fine idPrefix lay nums _ (rowsOf_fine last items h none) 0
  refine ⟨⟨by intro k hk; simp [arity] at hk, fun x hx => ?_,
    (shapedAll_iff _).2 fun x hx => (hr x hx).1⟩, by simp [Xml.name], by simp [Xml.name]⟩
  rw [(hr x hx).2]; rfl

theorem padded_fine (fmt : Rat → Str) (as : Attrs) {x : Xml} (h : Fine x) (ls : List Length) :
    Fine (paddedXml fmt as x ls) := by
  induction ls with
  | nil => exact .plain ⟨by decide, by decide⟩ (.one h)
  | cons l ls ih =>
    cases ls with
    | nil => exact .plain ⟨by decide, by decide⟩ (.one h)
    | cons l' ls => exact .plain ⟨by decide, by decide⟩ (.one ih)

theorem textStyle_fine (s : Option HtmlTextStyle) {kids : List Xml} (h : AllFine kids) :
    AllFine (textStyleXml s kids) := by
  have key : ∀ {n : Str} {as : Attrs} {kids : List Xml},
      (n ≠ c!"mtr" ∧ n ≠ c!"mtd" ∧ n ≠ c!"mtable") ∧ arity n = none → AllFine kids → AllFine [.elem n as kids] :=
    fun h1 h => .one (.plain h1 h)
  cases s with
  | none => exact h
  | some s =>
    cases s <;>
      first
        | exact key ⟨by decide, by decide⟩ h
        | exact key ⟨by decide, by decide⟩ (key ⟨by decide, by decide⟩ h)

theorem marks_fine (n : Notation) : AllFine (notationMarks n) := by
  unfold notationMarks
  refine AllFine.append (AllFine.append ?_ ?_) ?_ <;> split <;>
    first | exact .nil | exact .one (.plain ⟨by decide, by decide⟩ .nil)

mutual
theorem toXml_fine (cfg : EmitCfg) : ∀ n, Fine (toXml cfg n) := by
  intro n
  match n with
  | .number _ | .operator _ _ _ _ _ | .pseudoOp _ _ _ _ =>
    simp only [toXml]; exact .plain ⟨by decide, by decide⟩ (allFine_txt _)
  | .identifierStr _ =>
    simp only [toXml]
    exact .plain ⟨by decide, by decide⟩ (.cons (.fixed 0 ⟨by decide, by decide⟩ rfl .nil)
      (.one (.plain ⟨by decide, by decide⟩ (allFine_txt _))))
  | .identifierChar _ _ =>
    simp only [toXml]
    split
    · exact .plain ⟨by decide, by decide⟩ (.cons (.fixed 0 ⟨by decide, by decide⟩ rfl .nil)
        (.one (.plain ⟨by decide, by decide⟩ (allFine_txt _))))
    · split
      · exact .plain ⟨by decide, by decide⟩ (allFine_txt _)
      · exact .plain ⟨by decide, by decide⟩ (.cons (.fixed 0 ⟨by decide, by decide⟩ rfl .nil)
          (.one (.plain ⟨by decide, by decide⟩ (allFine_txt _))))
  | .space _ => simp only [toXml]; exact .fixed 0 ⟨by decide, by decide⟩ rfl .nil
  | .sub a b | .sup a b | .frac a b _ _ _ =>
    simp only [toXml]
    exact .fixed 2 ⟨by decide, by decide⟩ rfl (.cons (toXml_fine cfg a) (.one (toXml_fine cfg b)))
  | .over a b | .under a b | .root a b =>
    simp only [toXml]
    exact .fixed 2 ⟨by decide, by decide⟩ rfl (.cons (toXml_fine cfg b) (.one (toXml_fine cfg a)))
  | .subSup a b c | .underOver a b c =>
    simp only [toXml]
    exact .fixed 3 ⟨by decide, by decide⟩ rfl (.cons (toXml_fine cfg a) (.cons (toXml_fine cfg b)
      (.one (toXml_fine cfg c))))
  | .overAccent _ _ a | .underAccent _ _ a =>
    simp only [toXml]
    exact .fixed 2 ⟨by decide, by decide⟩ rfl (.cons (toXml_fine cfg a)
      (.one (.plain ⟨by decide, by decide⟩ (allFine_txt _))))
  | .sqrt a | .phantom a =>
    simp only [toXml]; exact .plain ⟨by decide, by decide⟩ (.one (toXml_fine cfg a))
  | .padded a _ _ _ _ _ => simp only [toXml]; exact padded_fine _ _ (toXml_fine cfg a) _
  | .row ns _ => simp only [toXml]; exact .plain ⟨by decide, by decide⟩ (toXmls_fine cfg ns)
  | .text s _ _ => simp only [toXml]; exact .plain ⟨by decide, by decide⟩ (textStyle_fine s (allFine_txt _))
  | .aHref _ _ =>
    simp only [toXml]
    exact .plain ⟨by decide, by decide⟩ (.one (.plain ⟨by decide, by decide⟩ (allFine_txt _)))
  | .eqRef _ =>
    simp only [toXml]
    exact .plain ⟨by decide, by decide⟩ (.one (.plain ⟨by decide, by decide⟩ (.one (fine_text _))))
  | .table _ _ _ c => simp only [toXml]; exact table_fine _ _ _ _ _ (toItems_fine cfg c) _
  | .equationArray _ _ c => simp only [toXml]; exact table_fine _ _ _ _ _ (toItems_fine cfg c) _
  | .multLine _ _ c => simp only [toXml]; exact table_fine _ _ _ _ _ (toItems_fine cfg c) _
  | .array _ _ c => simp only [toXml]; exact table_fine _ _ _ _ _ (toItems_fine cfg c) _
  | .columnSeparator | .rowSeparator _ _ => simp only [toXml]; exact fine_text _
  | .enclose a n =>
    simp only [toXml]; exact .plain ⟨by decide, by decide⟩ (.cons (toXml_fine cfg a) (marks_fine n))
  | .multiscripts a pre post =>
    simp only [toXml]
    refine .plain ⟨by decide, by decide⟩ (.cons (toXml_fine cfg a) (.append (toXmlPairs_fine cfg post) ?_))
    have := toXmlPairs_fine cfg pre
    split
    · exact .nil
    · exact .cons (.fixed 0 ⟨by decide, by decide⟩ rfl .nil) this
  | .unknownCommand _ =>
    simp only [toXml]
    exact .plain ⟨by decide, by decide⟩ (.one (.plain ⟨by decide, by decide⟩ (allFine_txt _)))

theorem toXmls_fine (cfg : EmitCfg) : ∀ ns, AllFine (toXmls cfg ns) := by
  intro ns
  match ns with
  | [] => exact .nil
  | n :: ns => simp only [toXmls]; exact .cons (toXml_fine cfg n) (toXmls_fine cfg ns)

theorem toXmlPairs_fine (cfg : EmitCfg) : ∀ ps, AllFine (toXmlPairs cfg ps) := by
  intro ps
  match ps with
  | [] => exact .nil
  | (a, b) :: ps =>
    simp only [toXmlPairs]
    exact .cons (toXml_fine cfg a) (.cons (toXml_fine cfg b) (toXmlPairs_fine cfg ps))

theorem toItems_fine (cfg : EmitCfg) : ∀ ns, ∀ it ∈ toItems cfg ns, ItemFine it := by
  intro ns
  match ns with
  | [] => intro it h; simp [toItems] at h
  | nd :: ns =>
    intro it h
    have ih := toItems_fine cfg ns
    have hx := toXml_fine cfg nd
    by_cases hs : (∃ l b, nd = .rowSeparator l b) ∨ nd = .columnSeparator
    · rcases hs with ⟨l, b, rfl⟩ | rfl
      · simp only [toItems, List.mem_cons] at h
        rcases h with rfl | h
        · trivial
        · exact ih it h
      · simp only [toItems, List.mem_cons] at h
        rcases h with rfl | h
        · trivial
        · exact ih it h
    · have he : toItems cfg (nd :: ns) = .node (toXml cfg nd) :: toItems cfg ns := by
        cases nd <;> first | rfl | simp at hs
      rw [he, List.mem_cons] at h
      rcases h with rfl | h
      · exact hx
      · exact ih it h
end

theorem documentXml_fine (flags : EmitterConfig) (ast : List Node) (latex : Str) (display : MathDisplay) :
    Fine (documentXml flags ast latex display) := by
  unfold documentXml
  refine .plain ⟨by decide, by decide⟩ ?_
  split
  · exact .one (.plain ⟨by decide, by decide⟩ (.cons (toXml_fine _ _)
      (.one (.plain ⟨by decide, by decide⟩ (allFine_txt _)))))
  · exact toXmls_fine _ _

end Verif

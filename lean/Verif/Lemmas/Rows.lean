import Verif.Lemmas.NextRow
import Verif.Lemmas.Quiet
/-! What an environment shows: its rows and cells are those of the source, with the numbers which are due. -/
namespace Verif
open Model Spec

/-- What is known in the middle of a row -/
def stateOf (mode : Option NumberingMode) (acc : RowEvents) (k : Option Nat) : Option NumberedEnvState :=
  mode.map fun m => { mode := m, suppressNextNumber := acc.noNumber, customNextTag := acc.tag, label := acc.label, numRows := k }

/-- What was said before, and what is said in the rest of the row -/
def addEvents (acc ev : RowEvents) : RowEvents :=
  { tag := ev.tag.or acc.tag, noNumber := acc.noNumber || ev.noNumber, label := acc.label.or ev.label }

theorem add_nothing (acc : RowEvents) : addEvents acc {} = acc := by
  cases acc; simp [addEvents]

theorem nothing_add (ev : RowEvents) : addEvents {} ev = ev := by
  cases ev; simp [addEvents]

/-- The end of a row where a number is due -/
theorem endRow_spec {m : NumberingMode} {acc : RowEvents} {k : Option Nat} {isLast : Bool} {l : Loc}
    {info : Option RowLabelInfo} {n' : NumberedEnvState} {l' : Loc} (hm : isLast = true ∨ m ≠ .onlyLast)
    (h : endRow ⟨m, acc.noNumber, acc.tag, acc.label, k⟩ isLast l = .ok (info, n', l')) :
    info = (rowNumber m ⟨l.count, l.labels⟩ acc).1 ∧
    (⟨l'.count, l'.labels⟩ : Counters) = (rowNumber m ⟨l.count, l.labels⟩ acc).2 ∧
    n'.numRows = k ∧ (acc.consistent = true → some n' = stateOf (some m) {} k) ∧ (l'.style = l.style ∧ l'.stacked = l.stacked) ∧ l'.env = l.env := by
  have hx : ¬ (m = .onlyLast ∧ isLast = false) := by
    rintro ⟨h1, h2⟩
    rcases hm with h3 | h3
    · rw [h2] at h3; cases h3
    · exact h3 h1
  obtain ⟨tag, noNumber, label⟩ := acc
  simp only [endRow, NumberedEnvState.nextEquationTag, if_neg hx] at h
  cases tag with
  | some t =>
    simp only [Except.ok.injEq, Prod.mk.injEq] at h
    obtain ⟨rfl, rfl, rfl⟩ := h
    refine ⟨rfl, rfl, rfl, ?_, ⟨rfl, rfl⟩, rfl⟩
    intro hc
    simp only [RowEvents.consistent, Option.isSome_some, Bool.true_and, Bool.not_eq_true'] at hc
    simp only [hc]; rfl
  | none =>
    by_cases hs : noNumber = true ∨ m = .noneByDefault
    · simp only [if_pos hs, Except.ok.injEq, Prod.mk.injEq] at h
      obtain ⟨rfl, rfl, rfl⟩ := h
      have ha : isAutomatic m ⟨none, noNumber, label⟩ = false := by
        rcases hs with h | h <;> simp [isAutomatic, h]
      simp only [rowNumber, rowTag, if_pos hs, ha]
      exact ⟨trivial, rfl, trivial, fun _ => rfl, ⟨trivial, trivial⟩, trivial⟩
    · simp only [if_neg hs] at h
      by_cases hlt : l.count < usizeMax
      · simp only [if_pos hlt, Except.ok.injEq, Prod.mk.injEq] at h
        obtain ⟨rfl, rfl, rfl⟩ := h
        have ha : isAutomatic m ⟨none, noNumber, label⟩ = true := by
          simp only [not_or, Bool.not_eq_true] at hs
          simp [isAutomatic, hs]
        have hn : noNumber = false := by
          simp only [not_or, Bool.not_eq_true] at hs
          exact hs.1
        simp only [rowNumber, rowTag, if_neg hs, ha, if_true]
        exact ⟨rfl, rfl, trivial, fun _ => by simp only [hn]; rfl, ⟨trivial, trivial⟩, trivial⟩
      · simp only [if_neg hlt] at h; cases h

/-- The end of a row which is not the last one of `multline` -/
theorem endRow_keep {acc : RowEvents} {k : Option Nat} {l : Loc}
    {info : Option RowLabelInfo} {n' : NumberedEnvState} {l' : Loc}
    (h : endRow ⟨.onlyLast, acc.noNumber, acc.tag, acc.label, k⟩ false l = .ok (info, n', l')) :
    info = none ∧ l' = l ∧ some n' = stateOf (some .onlyLast) { acc with label := none } k := by
  simp only [endRow, NumberedEnvState.nextEquationTag, and_self, if_true] at h
  cases h
  exact ⟨rfl, rfl, rfl⟩

theorem joinShown_cons (n : Node) (c : List Node) (cs : List (List Node)) (i : Option RowLabelInfo) (rows : List ShownRow) :
    joinShown (⟨(n :: c) :: cs, i, none⟩ :: rows) = n :: joinShown (⟨c :: cs, i, none⟩ :: rows) := by
  cases rows <;> cases cs <;> rfl

theorem joinShown_cell (c : List Node) (cs : List (List Node)) (i : Option RowLabelInfo) (rows : List ShownRow) :
    joinShown (⟨[] :: c :: cs, i, none⟩ :: rows) = .columnSeparator :: joinShown (⟨c :: cs, i, none⟩ :: rows) := by
  cases rows <;> rfl

/-- The line above the first row is not between rows. -/
theorem joinShown_line (cs : List (List Node)) (i : Option RowLabelInfo) (line : Option LineType) (rows : List ShownRow) :
    joinShown (⟨cs, i, line⟩ :: rows) = joinShown (⟨cs, i, none⟩ :: rows) := by
  cases rows <;> rfl

/-- What is said about the rest of an environment -/
structure BodyShows (mode : Option NumberingMode) (st : Style) (env : EnvState) (acc : RowEvents) (k : Option Nat) (l : Loc)
    (prev : Class) (s : Split) (ns : List Node) (l' : Loc) (nxt : Class) (c : List Node) (cs : List (List Node))
    (i : Option RowLabelInfo) (others : List ShownRow) (infos : List (Option RowLabelInfo)) (last : RowEvents) : Prop where
  nodes : ns = joinShown (⟨c :: cs, i, none⟩ :: others)
  next : nxt = .ending ∨ nxt = .opening
  cell : ∀ l : Loc, l.calm st → s.cell.denote l prev nxt = .ok (c, l)
  cells : CellsMean st .closing s.cells cs
  rows : RowsMean st .opening s.rows others
  style : l'.calm st
  env : l'.env = { env with numbered := stateOf mode last (k.map (· + s.rows.length)) }
  numbers : numberRows mode ⟨l.count, l.labels⟩ (addEvents acc s.events) (s.rows.map (·.events)) =
    (infos ++ (numberRows mode ⟨l'.count, l'.labels⟩ last []).1, (numberRows mode ⟨l'.count, l'.labels⟩ last []).2)
  shown : i :: others.map (·.info) = (numberRows mode ⟨l.count, l.labels⟩ (addEvents acc s.events) (s.rows.map (·.events))).1

/-- The last row -/
theorem numbers_last (mode : Option NumberingMode) (c : Counters) (ev : RowEvents) :
    ∃ i, (numberRows mode c ev []).1 = [i] := by
  cases mode <;> exact ⟨_, rfl⟩

theorem endsCell_simple : ∀ (f : Form) (mid : Bool), f.endsCell = true → f.simpleRows mid = true
  | .nil, _, _ => by simp [Form.simpleRows]
  | .item _ _ _, _, h => by simp [Form.endsCell] at h
  | .bigOp _ _ _, _, h => by simp [Form.endsCell] at h
  | .func _ _ _ _, _, h => by simp [Form.endsCell] at h
  | .amp rest, mid, h => by simp only [Form.endsCell] at h; simp only [Form.simpleRows, h]
  | .newLine line rest, mid, h => by simp only [Form.endsCell] at h; simp only [Form.simpleRows, h]
  | .noNumber rest, mid, h => by
    simp only [Form.endsCell] at h; simp only [Form.simpleRows, h, endsCell_simple rest false h, ite_self]
  | .tag _ _ rest, mid, h => by
    simp only [Form.endsCell] at h; simp only [Form.simpleRows, h, endsCell_simple rest false h, ite_self]
  | .label _ rest, mid, h => by
    simp only [Form.endsCell] at h; simp only [Form.simpleRows, h, endsCell_simple rest false h, ite_self]
  | .style _ _, _, h | .color _ _, _, h => by simp [Form.endsCell] at h

theorem endsCell_cell : ∀ (f : Form), f.endsCell = true →
    f.split.cell = .nil ∧ (lead f.tokens .ending = .ending ∨ lead f.tokens .ending = .opening)
  | .nil, _ => ⟨rfl, .inl (by simp [Form.tokens, lead])⟩
  | .item _ _ _, h => by simp [Form.endsCell] at h
  | .bigOp _ _ _, h => by simp [Form.endsCell] at h
  | .func _ _ _ _, h => by simp [Form.endsCell] at h
  | .amp rest, h => ⟨rfl, .inl (by simp only [Form.tokens]; rfl)⟩
  | .newLine line rest, h => ⟨rfl, .inl (by simp only [Form.tokens]; rfl)⟩
  | .noNumber rest, h => by
    simp only [Form.endsCell] at h
    have := endsCell_cell rest h
    refine ⟨this.1, ?_⟩
    simp only [Form.tokens]; exact this.2
  | .tag _ _ rest, h => by
    simp only [Form.endsCell] at h
    have := endsCell_cell rest h
    exact ⟨this.1, .inr (by simp only [Form.tokens]; rfl)⟩
  | .label _ rest, h => by
    simp only [Form.endsCell] at h
    have := endsCell_cell rest h
    exact ⟨this.1, .inr (by simp only [Form.tokens]; rfl)⟩
  | .style _ _, h | .color _ _, h => by simp [Form.endsCell] at h

theorem lead_bigOp (o : BigOp) (ts : List Tk) (nxt : Class) : lead (⟨o.token, false⟩ :: ts) nxt = .operator := by
  unfold BigOp.token
  cases o.char <;> rfl

theorem lead_app (a b : List Tk) (nxt : Class) : lead (a ++ b) nxt = lead a (lead b nxt) := by
  induction a with
  | nil => rfl
  | cons t ts ih => simp only [List.cons_append, lead, ih]

theorem quiet_cell {f : Form} (h : f.quiet false = true) {st : Style} {l : Loc} (hl : l.calm st) {prev nxt : Class}
    {ns : List Node} {l' : Loc} (hd : f.denote l prev nxt = .ok (ns, l')) :
    l' = l ∧ ∀ l : Loc, l.calm st → f.denote l prev nxt = .ok (ns, l) := by
  obtain ⟨r, hr⟩ := quiet_form f false h st l.env prev nxt nofun
  have h1 := hr l ⟨hl.1, nofun, hl.2⟩
  dsimp only at h1
  rw [hd] at h1
  cases r with
  | error e => cases h1
  | ok a =>
    cases h1
    exact ⟨rfl, fun l2 h2 => hr l2 ⟨h2.1, nofun, h2.2⟩⟩

theorem quiet_base' {b : Base} (h : b.quiet = true) {st : Style} {l : Loc} (hl : l.calm st) {prev nxt : Class}
    {a : Class × Node} {l' : Loc} (hd : b.denote l prev nxt = .ok (a, l')) :
    l' = l ∧ ∀ l : Loc, l.calm st → b.denote l prev nxt = .ok (a, l) := by
  obtain ⟨r, hr⟩ := quiet_base b h st false l.env prev nxt
  have h1 := hr l ⟨hl.1, nofun, hl.2⟩
  dsimp only at h1
  rw [hd] at h1
  cases r with
  | error e => cases h1
  | ok a =>
    cases h1
    exact ⟨rfl, fun l2 h2 => hr l2 ⟨h2.1, nofun, h2.2⟩⟩

theorem quiet_scripts' {s : Scripts} (h : s.quiet = true) {st : Style} {l : Loc} (hl : l.calm st) {b : Bounds}
    {a : Bounds} {l' : Loc} (hd : s.denote l b = .ok (a, l')) :
    l' = l ∧ ∀ l : Loc, l.calm st → s.denote l b = .ok (a, l) := by
  obtain ⟨r, hr⟩ := quiet_scripts s h st false l.env b
  have h1 := hr l ⟨hl.1, nofun, hl.2⟩
  dsimp only at h1
  rw [hd] at h1
  cases r with
  | error e => cases h1
  | ok a =>
    cases h1
    exact ⟨rfl, fun l2 h2 => hr l2 ⟨h2.1, nofun, h2.2⟩⟩

/-- Nothing is changed. -/
theorem quiet_cell_eq {f : Form} (h : f.quiet false = true) {l : Loc} {prev nxt : Class} {ns : List Node} {l' : Loc}
    (hd : f.denote l prev nxt = .ok (ns, l')) : l' = l := by
  obtain ⟨r, hr⟩ := quiet_form (stk := l.stacked) f false h l.style l.env prev nxt nofun
  have h1 := hr l ⟨rfl, nofun, rfl⟩
  dsimp only at h1
  rw [hd] at h1
  cases r with
  | error e => cases h1
  | ok a => cases h1; rfl

theorem quiet_base_eq {b : Base} (h : b.quiet = true) {l : Loc} {prev nxt : Class} {a : Class × Node} {l' : Loc}
    (hd : b.denote l prev nxt = .ok (a, l')) : l' = l := by
  obtain ⟨r, hr⟩ := quiet_base (stk := l.stacked) b h l.style false l.env prev nxt
  have h1 := hr l ⟨rfl, nofun, rfl⟩
  dsimp only at h1
  rw [hd] at h1
  cases r with
  | error e => cases h1
  | ok a => cases h1; rfl

theorem quiet_scripts_eq {s : Scripts} (h : s.quiet = true) {l : Loc} {b : Bounds} {a : Bounds} {l' : Loc}
    (hd : s.denote l b = .ok (a, l')) : l' = l := by
  obtain ⟨r, hr⟩ := quiet_scripts (stk := l.stacked) s h l.style false l.env b
  have h1 := hr l ⟨rfl, nofun, rfl⟩
  dsimp only at h1
  rw [hd] at h1
  cases r with
  | error e => cases h1
  | ok a => cases h1; rfl

theorem bind_ok {α β ε : Type} {m : Except ε α} {k : α → Except ε β} {b : β} (h : (m >>= k) = .ok b) :
    ∃ a, m = .ok a ∧ k a = .ok b := by
  cases m with
  | error e => cases h
  | ok a => exact ⟨a, rfl, h⟩

/-- What an environment contains is shown row by row and cell by cell. -/
theorem body_rows (mode : Option NumberingMode) (st : Style) (env : EnvState) : ∀ (f : Form) (mid : Bool),
    f.simpleRows mid = true → ∀ (acc : RowEvents) (k : Option Nat) (l : Loc) (prev : Class) (ns : List Node) (l' : Loc),
    l.calm st → l.env = { env with numbered := stateOf mode acc k } →
    (env.meaningfulNewlines = true ∨ f.split.rows = []) →
    (mode ≠ some .onlyLast → (addEvents acc f.split.events).consistent = true ∧ ∀ r ∈ f.split.rows, r.events.consistent = true) →
    f.denote l prev .ending = .ok (ns, l') →
    ∃ nxt c cs i others infos last, BodyShows mode st env acc k l prev f.split ns l' nxt c cs i others infos last ∧
      (mid = true → lead f.tokens .ending = lead f.split.cell.tokens nxt)
  | .nil, mid, _, acc, k, l, prev, ns, l', hst, henv, _, _, hd => by
    simp only [Form.denote] at hd
    cases hd
    obtain ⟨i, hi⟩ := numbers_last mode ⟨l.count, l.labels⟩ acc
    refine ⟨.ending, [], [], i, [], [], acc, ⟨rfl, .inl rfl, ?_, trivial, trivial, hst, ?_, ?_, ?_⟩, fun _ => rfl⟩
    · intro l _; simp only [Form.split, Form.denote]
    · rw [henv]; cases k <;> rfl
    · simp only [Form.split, add_nothing]; rfl
    · simp only [Form.split, add_nothing]; exact hi.symm
  | .item b s rest, mid, h, acc, k, l, prev, ns, l', hst, henv, hrows, hcon, hd => by
    simp only [Form.simpleRows, Bool.and_eq_true] at h
    obtain ⟨⟨h1, h2⟩, h3⟩ := h
    simp only [Form.denote] at hd
    obtain ⟨⟨r1, l1⟩, hd1, hd⟩ := bind_ok hd
    obtain ⟨⟨r2, l2⟩, hd2, hd⟩ := bind_ok hd
    obtain ⟨⟨r3, l3⟩, hd3, hd⟩ := bind_ok hd
    cases hd
    obtain ⟨rfl, q1⟩ := quiet_base' h1 hst hd1
    obtain ⟨rfl, q2⟩ := quiet_scripts' h2 hst hd2
    obtain ⟨nxt, c, cs, i, others, infos, last, B, hlead⟩ :=
      body_rows mode st env rest true h3 acc k l2 r1.1 r3 l3 hst henv hrows hcon hd3
    refine ⟨nxt, withScripts r1.2 r2 :: c, cs, i, others, infos, last, ⟨?_, B.next, ?_, B.cells, B.rows, B.style, B.env,
      B.numbers, B.shown⟩, fun _ => ?_⟩
    · rw [joinShown_cons, ← B.nodes]
    · intro l hl
      simp only [Form.split, Form.denote, lead_app, ← hlead rfl]
      rw [lead_app] at q1
      rw [q1 l hl]
      simp only [bind, Except.bind]
      rw [q2 l hl]
      simp only
      rw [B.cell l hl]
    · simp only [Form.split, Form.tokens, lead_app, ← hlead rfl]
  | .bigOp o s rest, mid, h, acc, k, l, prev, ns, l', hst, henv, hrows, hcon, hd => by
    simp only [Form.simpleRows, Bool.and_eq_true] at h
    obtain ⟨h2, h3⟩ := h
    simp only [Form.denote] at hd
    by_cases hc : o.op.cat = .C
    · simp only [if_pos hc] at hd
      obtain ⟨⟨r2, l2⟩, hd2, hd⟩ := bind_ok hd
      obtain ⟨⟨r3, l3⟩, hd3, hd⟩ := bind_ok hd
      cases hd
      obtain ⟨rfl, q2⟩ := quiet_scripts' h2 hst hd2
      obtain ⟨nxt, c, cs, i, others, infos, last, B, hlead⟩ :=
        body_rows mode st env rest true h3 acc k l2 _ r3 l3 hst henv hrows hcon hd3
      refine ⟨nxt, (withScripts (.operator o.op.asOp .empty none (opSpacing l2.style prev (lead (s.tokens ++ rest.tokens) .ending) false).1 (opSpacing l2.style prev (lead (s.tokens ++ rest.tokens) .ending) false).2) r2) :: c, cs, i, others, infos, last, ⟨?_, B.next, ?_, B.cells, B.rows, B.style, B.env,
        B.numbers, B.shown⟩, fun _ => ?_⟩
      · rw [joinShown_cons, ← B.nodes]
      · intro l hl
        simp only [Form.split, Form.denote, if_pos hc, lead_app, ← hlead rfl]
        rw [q2 l hl]
        simp only [bind, Except.bind]
        rw [B.cell l hl]
        simp only [hl.1, hst.1]
      · simp only [Form.split, Form.tokens, List.cons_append, lead_bigOp]
    · simp only [if_neg hc] at hd
      obtain ⟨⟨r2, l2⟩, hd2, hd⟩ := bind_ok hd
      obtain ⟨⟨r3, l3⟩, hd3, hd⟩ := bind_ok hd
      cases hd
      obtain ⟨rfl, q2⟩ := quiet_scripts' h2 hst hd2
      obtain ⟨nxt, c, cs, i, others, infos, last, B, hlead⟩ :=
        body_rows mode st env rest true h3 acc k l2 _ r3 l3 hst henv hrows hcon hd3
      refine ⟨nxt, (opNode (limitsSet o.lim (o.op.cat = .J)) (.operator o.op.asOp (limitsAttrs (o.op.cat = .J) o.lim r2) none (opSpacing l2.style prev (lead rest.tokens .ending) false).1 (opSpacing l2.style prev (lead rest.tokens .ending) false).2) r2) :: c, cs, i, others, infos, last, ⟨?_, B.next, ?_, B.cells, B.rows, B.style, B.env,
        B.numbers, B.shown⟩, fun _ => ?_⟩
      · rw [joinShown_cons, ← B.nodes]
      · intro l hl
        simp only [Form.split, Form.denote, if_neg hc, ← hlead rfl]
        rw [q2 l hl]
        simp only [bind, Except.bind]
        rw [B.cell l hl]
        simp only [hl.1, hst.1]
      · simp only [Form.split, Form.tokens, List.cons_append, lead_bigOp]
  | .func x lim s rest, mid, h, acc, k, l, prev, ns, l', hst, henv, hrows, hcon, hd => by
    simp only [Form.simpleRows, Bool.and_eq_true] at h
    obtain ⟨h2, h3⟩ := h
    simp only [Form.denote] at hd
    obtain ⟨⟨r2, l2⟩, hd2, hd⟩ := bind_ok hd
    obtain ⟨⟨r3, l3⟩, hd3, hd⟩ := bind_ok hd
    cases hd
    obtain ⟨rfl, q2⟩ := quiet_scripts' h2 hst hd2
    obtain ⟨nxt, c, cs, i, others, infos, last, B, hlead⟩ :=
      body_rows mode st env rest true h3 acc k l2 _ r3 l3 hst henv hrows hcon hd3
    refine ⟨nxt, (opNode (limitsSet x.lim lim) (.pseudoOp (funcAttrs lim x.lim r2) (opSpacing l2.style prev (lead rest.tokens .ending) true).1 (opSpacing l2.style prev (lead rest.tokens .ending) true).2 x.name.shown) r2) :: c, cs, i, others, infos, last, ⟨?_, B.next, ?_, B.cells, B.rows, B.style, B.env,
      B.numbers, B.shown⟩, fun _ => ?_⟩
    · rw [joinShown_cons, ← B.nodes]
    · intro l hl
      simp only [Form.split, Form.denote, ← hlead rfl]
      rw [q2 l hl]
      simp only [bind, Except.bind]
      rw [B.cell l hl]
      simp only [hl.1, hst.1]
    · obtain ⟨⟨name | text⟩, k⟩ := x <;> (simp only [Form.split, Form.tokens]; cases lim <;> rfl)
  | .amp rest, mid, h, acc, k, l, prev, ns, l', hst, henv, hrows, hcon, hd => by
    simp only [Form.simpleRows] at h
    simp only [Form.denote] at hd
    by_cases ha : l.env.allowColumns = true
    · rw [if_pos ha] at hd
      obtain ⟨⟨r3, l3⟩, hd3, hd⟩ := bind_ok hd
      cases hd
      obtain ⟨nxt, c, cs, i, others, infos, last, B, hlead⟩ :=
        body_rows mode st env rest false h acc k l _ r3 l3 hst henv hrows hcon hd3
      refine ⟨.ending, [], c :: cs, i, others, infos, last, ⟨?_, .inl rfl, ?_, ⟨⟨nxt, B.next, B.cell⟩, B.cells⟩, B.rows, B.style,
        B.env, B.numbers, B.shown⟩, fun _ => ?_⟩
      · rw [joinShown_cell, ← B.nodes]
      · intro l _; simp only [Form.split, Form.denote]
      · simp only [Form.split, Form.tokens]; rfl
    · rw [if_neg ha] at hd; cases hd
  | .newLine line rest, mid, h, acc, k, l, prev, ns, l', hst, henv, hrows, hcon, hd => by
    simp only [Form.simpleRows] at h
    simp only [Form.denote] at hd
    have hm : env.meaningfulNewlines = true := by
      rcases hrows with h | h
      · exact h
      · simp only [Form.split, Split.all] at h; cases h
    have hcon2 : mode ≠ some .onlyLast → acc.consistent = true ∧ (Form.split rest).events.consistent = true ∧
        ∀ r ∈ rest.split.rows, r.events.consistent = true := by
      intro hmo
      have := hcon hmo
      simp only [Form.split, Split.all, Split.row, add_nothing, List.mem_cons, forall_eq_or_imp] at this
      exact this
    obtain ⟨⟨r1, l1⟩, hd1, hd⟩ := bind_ok hd
    obtain ⟨⟨r3, l3⟩, hd3, hd⟩ := bind_ok hd
    cases hd
    replace hd1 := nextRow_ok hd1
    unfold lineBreak at hd1
    rw [henv] at hd1
    rw [if_neg (by simp [hm])] at hd1
    cases mode with
    | none =>
      simp only [stateOf, Option.map_none] at hd1
      cases hd1
      obtain ⟨nxt, c, cs, i, others, infos, last, B, hlead⟩ :=
        body_rows none st env rest false h {} k l _ r3 l3 hst henv (.inl hm)
          (fun hmo => by rw [nothing_add]; exact (hcon2 hmo).2) hd3
      refine ⟨.ending, [], [], none, ⟨c :: cs, i, line⟩ :: others, none :: infos, last, ⟨?_, .inl rfl, ?_, trivial,
        ⟨⟨⟨⟨nxt, B.next, B.cell⟩, B.cells⟩, rfl⟩, B.rows⟩, B.style, ?_, ?_, ?_⟩, fun _ => ?_⟩
      · rw [B.nodes, ← joinShown_line _ _ line]; rfl
      · intro l _; simp only [Form.split, Form.denote]
      · rw [B.env]; rfl
      · have hB := B.numbers
        rw [nothing_add] at hB
        simp only [Form.split, Split.all, Split.row, add_nothing, List.map_cons, numberRows]
        rw [hB]
        rfl
      · have hB := B.shown
        rw [nothing_add] at hB
        simp only [Form.split, Split.all, Split.row, add_nothing, List.map_cons, numberRows]
        rw [← hB]
      · simp only [Form.split, Form.tokens]; rfl
    | some m =>
      simp only [stateOf, Option.map_some] at hd1
      split at hd1
      · cases hd1
      obtain ⟨⟨info, n', l2⟩, hd4, hd1⟩ := bind_ok hd1
      cases hd1
      dsimp only at hd3
      by_cases hmo : m = .onlyLast
      · subst hmo
        obtain ⟨rfl, rfl, hn⟩ := endRow_keep hd4
        obtain ⟨nxt, c, cs, i, others, infos, last, B, hlead⟩ :=
          body_rows (some .onlyLast) st env rest false h { acc with label := none } (k.map (· + 1))
            { l2 with env := { env with numbered := some n' } } _ r3 l3 hst (by simp only [hn]) (.inl hm) (fun hmo => absurd rfl hmo) hd3
        have hp : addEvents { acc with label := none } rest.split.events = acc.passOn rest.split.events := by
          simp [addEvents, RowEvents.passOn]
        refine ⟨.ending, [], [], none, ⟨c :: cs, i, line⟩ :: others, none :: infos, last, ⟨?_, .inl rfl, ?_, trivial,
          ⟨⟨⟨⟨nxt, B.next, B.cell⟩, B.cells⟩, rfl⟩, B.rows⟩, B.style, ?_, ?_, ?_⟩, fun _ => ?_⟩
        · rw [B.nodes, ← joinShown_line _ _ line]; rfl
        · intro l _; simp only [Form.split, Form.denote]
        · rw [B.env]
          simp only [Form.split, Split.all, List.length_cons]
          cases k <;> simp [Nat.add_assoc, Nat.add_comm]
        · have hB := B.numbers
          rw [hp] at hB
          simp only [Form.split, Split.all, Split.row, add_nothing, List.map_cons]
          simp only [numberRows]
          rw [hB]
          rfl
        · have hB := B.shown
          rw [hp] at hB
          simp only [Form.split, Split.all, Split.row, add_nothing, List.map_cons]
          simp only [numberRows]
          rw [← hB]
        · simp only [Form.split, Form.tokens]; rfl
      · have hmo2 : some m ≠ some NumberingMode.onlyLast := fun h => hmo (Option.some.inj h)
        obtain ⟨rfl, hcnt, _, hn, hs2, he2⟩ := endRow_spec (.inr hmo) hd4
        replace hn := hn (hcon2 hmo2).1
        obtain ⟨nxt, c, cs, i, others, infos, last, B, hlead⟩ :=
          body_rows (some m) st env rest false h {} (k.map (· + 1))
            { l2 with env := { env with numbered := some n' } } _ r3 l3 ⟨hs2.1.trans hst.1, hs2.2.trans hst.2⟩ (by simp only [hn]) (.inl hm) (fun hmo => by rw [nothing_add]; exact (hcon2 hmo).2) hd3
        have hnum : ∀ c ev ev' evs, numberRows (some m) c ev (ev' :: evs) =
            ((rowNumber m c ev).1 :: (numberRows (some m) (rowNumber m c ev).2 ev' evs).1,
              (numberRows (some m) (rowNumber m c ev).2 ev' evs).2) := by
          intro c ev ev' evs
          cases m <;> first | rfl | exact absurd rfl hmo
        refine ⟨.ending, [], [], (rowNumber m ⟨l.count, l.labels⟩ acc).1, ⟨c :: cs, i, line⟩ :: others,
          (rowNumber m ⟨l.count, l.labels⟩ acc).1 :: infos, last, ⟨?_, .inl rfl, ?_, trivial,
          ⟨⟨⟨⟨nxt, B.next, B.cell⟩, B.cells⟩, rfl⟩, B.rows⟩, B.style, ?_, ?_, ?_⟩, fun _ => ?_⟩
        · rw [B.nodes, ← joinShown_line _ _ line]; rfl
        · intro l _; simp only [Form.split, Form.denote]
        · rw [B.env]
          simp only [Form.split, Split.all, List.length_cons]
          cases k <;> simp [Nat.add_assoc, Nat.add_comm]
        · have hB := B.numbers
          rw [nothing_add] at hB
          simp only [Form.split, Split.all, Split.row, add_nothing, List.map_cons, hnum]
          rw [← hcnt, hB]
          rfl
        · have hB := B.shown
          rw [nothing_add] at hB
          simp only [Form.split, Split.all, Split.row, add_nothing, List.map_cons, hnum]
          rw [← hcnt, ← hB]
        · simp only [Form.split, Form.tokens]; rfl
  | .noNumber rest, mid, h, acc, k, l, prev, ns, l', hst, henv, hrows, hcon, hd => by
    have hadd : addEvents acc (Form.noNumber rest).split.events = addEvents { acc with noNumber := true } rest.split.events := by
      simp [addEvents, Form.split]
    simp only [Form.simpleRows] at h
    have h2 : rest.simpleRows mid = true := by
      cases mid
      · exact h
      · exact endsCell_simple rest true h
    simp only [Form.denote] at hd
    rw [hadd] at hcon
    obtain ⟨nxt, c, cs, i, others, infos, last, B, hlead⟩ :=
      body_rows mode st env rest mid h2 { acc with noNumber := true } k (suppressNumber l) prev ns l' hst
        (by unfold suppressNumber; rw [henv]; cases mode <;> rfl) hrows hcon hd
    have hnext : ∃ nxt', (nxt' = .ending ∨ nxt' = .opening) ∧
        (∀ l : Loc, l.calm st → rest.split.cell.denote l prev nxt' = .ok (c, l)) ∧
        (mid = true → lead (Form.noNumber rest).tokens .ending = lead rest.split.cell.tokens nxt') := by
      cases mid with
      | false => exact ⟨nxt, B.next, B.cell, nofun⟩
      | true =>
        have hf : (Form.noNumber rest).endsCell = true := by simpa [Form.endsCell] using h
        have he := endsCell_cell _ hf
        have he1 : rest.split.cell = .nil := he.1
        refine ⟨_, he.2, ?_, fun _ => by rw [he1]; rfl⟩
        have := B.cell
        rw [he1] at this ⊢
        intro l hl
        have := this l hl
        simp only [Form.denote] at this ⊢
        exact this
    obtain ⟨nxt', a1, a2, a3⟩ := hnext
    refine ⟨nxt', c, cs, i, others, infos, last, ⟨B.nodes, a1, a2, B.cells, B.rows, B.style, B.env, ?_, ?_⟩, a3⟩
    · rw [hadd]; exact B.numbers
    · rw [hadd]; exact B.shown
  | .tag paren text rest, mid, h, acc, k, l, prev, ns, l', hst, henv, hrows, hcon, hd => by
    have hadd : addEvents acc (Form.tag paren text rest).split.events =
        addEvents { acc with tag := some ⟨(plainText text).getD [], paren⟩ } rest.split.events := by
      simp only [addEvents, Form.split]
      cases rest.split.events.tag <;> rfl
    simp only [Form.simpleRows] at h
    have h2 : rest.simpleRows mid = true := by
      cases mid
      · exact h
      · exact endsCell_simple rest true h
    simp only [Form.denote] at hd
    obtain ⟨l1, hd1, hd⟩ := bind_ok hd
    rw [hadd] at hcon
    unfold putTag at hd1
    rw [henv] at hd1
    cases mode with
    | none => cases hd1
    | some m =>
    cases hd1
    obtain ⟨nxt, c, cs, i, others, infos, last, B, hlead⟩ :=
      body_rows (some m) st env rest mid h2 { acc with tag := some ⟨(plainText text).getD [], paren⟩ } k
        { l with env := { env with numbered := stateOf (some m) { acc with tag := some ⟨(plainText text).getD [], paren⟩ } k } }
        prev ns l' hst rfl hrows hcon hd
    have hnext : ∃ nxt', (nxt' = .ending ∨ nxt' = .opening) ∧
        (∀ l : Loc, l.calm st → rest.split.cell.denote l prev nxt' = .ok (c, l)) ∧
        (mid = true → lead (Form.tag paren text rest).tokens .ending = lead rest.split.cell.tokens nxt') := by
      cases mid with
      | false => exact ⟨nxt, B.next, B.cell, nofun⟩
      | true =>
        have hf : (Form.tag paren text rest).endsCell = true := by simpa [Form.endsCell] using h
        have he := endsCell_cell _ hf
        have he1 : rest.split.cell = .nil := he.1
        refine ⟨_, he.2, ?_, fun _ => by rw [he1]; rfl⟩
        have := B.cell
        rw [he1] at this ⊢
        intro l hl
        have := this l hl
        simp only [Form.denote] at this ⊢
        exact this
    obtain ⟨nxt', a1, a2, a3⟩ := hnext
    refine ⟨nxt', c, cs, i, others, infos, last, ⟨B.nodes, a1, a2, B.cells, B.rows, B.style, B.env, ?_, ?_⟩, a3⟩
    · rw [hadd]; exact B.numbers
    · rw [hadd]; exact B.shown
  | .label text rest, mid, h, acc, k, l, prev, ns, l', hst, henv, hrows, hcon, hd => by
    simp only [Form.simpleRows] at h
    have h2 : rest.simpleRows mid = true := by
      cases mid
      · exact h
      · exact endsCell_simple rest true h
    simp only [Form.denote] at hd
    obtain ⟨l1, hd1, hd⟩ := bind_ok hd
    unfold putLabel at hd1
    rw [henv] at hd1
    cases mode with
    | none => cases hd1
    | some m =>
    simp only [stateOf, Option.map_some] at hd1
    by_cases hl : acc.label.isSome = true
    · rw [if_pos hl] at hd1; cases hd1
    rw [if_neg hl] at hd1
    have hln : acc.label = none := by cases hx : acc.label with
      | none => rfl
      | some _ => rw [hx] at hl; exact absurd rfl hl
    have hadd : addEvents acc (Form.label text rest).split.events =
        addEvents { acc with label := some ((plainText text).getD []) } rest.split.events := by
      simp only [addEvents, Form.split, hln]; rfl
    rw [hadd] at hcon
    cases hd1
    obtain ⟨nxt, c, cs, i, others, infos, last, B, hlead⟩ :=
      body_rows (some m) st env rest mid h2 { acc with label := some ((plainText text).getD []) } k
        { l with env := { env with numbered := stateOf (some m) { acc with label := some ((plainText text).getD []) } k } }
        prev ns l' hst rfl hrows hcon hd
    have hnext : ∃ nxt', (nxt' = .ending ∨ nxt' = .opening) ∧
        (∀ l : Loc, l.calm st → rest.split.cell.denote l prev nxt' = .ok (c, l)) ∧
        (mid = true → lead (Form.label text rest).tokens .ending = lead rest.split.cell.tokens nxt') := by
      cases mid with
      | false => exact ⟨nxt, B.next, B.cell, nofun⟩
      | true =>
        have hf : (Form.label text rest).endsCell = true := by simpa [Form.endsCell] using h
        have he := endsCell_cell _ hf
        have he1 : rest.split.cell = .nil := he.1
        refine ⟨_, he.2, ?_, fun _ => by rw [he1]; rfl⟩
        have := B.cell
        rw [he1] at this ⊢
        intro l hl
        have := this l hl
        simp only [Form.denote] at this ⊢
        exact this
    obtain ⟨nxt', a1, a2, a3⟩ := hnext
    refine ⟨nxt', c, cs, i, others, infos, last, ⟨B.nodes, a1, a2, B.cells, B.rows, B.style, B.env, ?_, ?_⟩, a3⟩
    · rw [hadd]; exact B.numbers
    · rw [hadd]; exact B.shown
  | .style s rest, mid, h, acc, k, l, prev, ns, l', hst, henv, hrows, hcon, hd => by
    have hq : (Form.style s rest).quiet false = true := by simpa [Form.simpleRows, Form.quiet] using h
    obtain ⟨rfl, q⟩ := quiet_cell hq hst hd
    obtain ⟨i, hi⟩ := numbers_last mode ⟨l'.count, l'.labels⟩ acc
    refine ⟨.ending, ns, [], i, [], [], acc, ⟨rfl, .inl rfl, q, trivial, trivial, hst, ?_, ?_, ?_⟩, fun _ => rfl⟩
    · rw [henv]; cases k <;> rfl
    · simp only [Form.split, add_nothing]; rfl
    · simp only [Form.split, add_nothing]; exact hi.symm
  | .color s rest, mid, h, acc, k, l, prev, ns, l', hst, henv, hrows, hcon, hd => by
    have hq : (Form.color s rest).quiet false = true := by simpa [Form.simpleRows, Form.quiet] using h
    obtain ⟨rfl, q⟩ := quiet_cell hq hst hd
    obtain ⟨i, hi⟩ := numbers_last mode ⟨l'.count, l'.labels⟩ acc
    refine ⟨.ending, ns, [], i, [], [], acc, ⟨rfl, .inl rfl, q, trivial, trivial, hst, ?_, ?_, ?_⟩, fun _ => rfl⟩
    · rw [henv]; cases k <;> rfl
    · simp only [Form.split, add_nothing]; rfl
    · simp only [Form.split, add_nothing]; exact hi.symm

end Verif

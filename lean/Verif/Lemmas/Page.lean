import Verif.Lemmas.Untagged
/-! What environments and pages show. -/
namespace Verif
open Model Spec

theorem rowsMean_length {st : Style} : ∀ {prev : Class} {rs : List SrcRow} {ss : List ShownRow}, RowsMean st prev rs ss →
    ss.length = rs.length
  | _, [], [], _ => rfl
  | _, _ :: _, _ :: _, h => by simp only [List.length_cons]; rw [rowsMean_length h.2]
  | _, [], _ :: _, h => h.elim
  | _, _ :: _, [], h => h.elim

/-- What an environment shows -/
theorem env_shows {e : Env} {o : EnvArgs} {f : Form} (hs : simpleEnv e f = true) {l : Loc} (hk : l.stacked = false)
    {prev nxt : Class} {r : Class × Node} {l' : Loc}
    (h : (Base.env e e o f).denote l prev nxt = .ok (r, l')) :
    EnvShows e o f ⟨l.count, l.labels⟩ r.2 ∧ (⟨l'.count, l'.labels⟩ : Counters) = (envNumbers e f ⟨l.count, l.labels⟩).2 ∧
      l'.stacked = false := by
  simp only [simpleEnv, Bool.and_eq_true, Bool.or_eq_true, decide_eq_true_eq, List.all_eq_true, List.isEmpty_iff] at hs
  obtain ⟨⟨h1, h2⟩, h3⟩ := hs
  simp only [Base.denote] at h
  obtain ⟨spec, hspec, h⟩ := bind_ok h
  obtain ⟨⟨ns, l1⟩, hd, h⟩ := bind_ok h
  have hnum : (envState e).numbered = stateOf (Env.mode e) {} ((envState e).numbered.bind (·.numRows)) := by
    cases e <;> rfl
  obtain ⟨nx, c, cs, i, others, infos, last, B, -⟩ :=
    body_rows (Env.mode e) (envStyle e) (envState e) f false h1 {} ((envState e).numbered.bind (·.numRows))
      { l with style := envStyle e, env := envState e } .opening ns l1 ⟨rfl, hk⟩ (by rw [← hnum])
      h2 (fun hm => by
        rcases h3 with h3 | h3
        · exact absurd h3 hm
        · rw [nothing_add]
          exact ⟨h3 f.split.row (.head _), fun r hr => h3 r (.tail _ hr)⟩) hd
  have hB := B.numbers
  have hS := B.shown
  rw [nothing_add] at hB hS
  have hlen : (⟨c :: cs, i, none⟩ :: others : List ShownRow).length = f.split.rows.length + 1 := by
    simp only [List.length_cons, rowsMean_length B.rows]
  -- the last row
  have hlast : (⟨c :: cs, i, none⟩ :: others : List ShownRow).getLast?.bind (·.info) =
      (numberRows (Env.mode e) ⟨l1.count, l1.labels⟩ last []).1.head?.join := by
    obtain ⟨j, hj⟩ := numbers_last (Env.mode e) ⟨l1.count, l1.labels⟩ last
    have hS2 : (⟨c :: cs, i, none⟩ :: others : List ShownRow).map (·.info) = infos ++ [j] := by
      rw [List.map_cons, hS, hB, hj]
    have : ((⟨c :: cs, i, none⟩ :: others : List ShownRow).map (·.info)).getLast? = some j := by rw [hS2]; simp
    rw [List.getLast?_map] at this
    rw [hj]
    cases hx : (⟨c :: cs, i, none⟩ :: others : List ShownRow).getLast? with
    | none => rw [hx] at this; cases this
    | some r => rw [hx] at this; cases this; rfl
  have key : ∀ (n : Node) (info : Option RowLabelInfo) (rows : Option Nat),
      info = (numberRows (Env.mode e) ⟨l1.count, l1.labels⟩ last []).1.head?.join →
      (e = .multLine → rows = some (f.split.rows.length + 1)) →
      e.constructNode ns spec info rows o.line = some n → EnvShows e o f ⟨l.count, l.labels⟩ n := by
    intro n info rows h1 h2 h3
    refine ⟨spec, ⟨c :: cs, i, none⟩ :: others, hspec, ?_, ⟨⟨⟨⟨nx, B.next, B.cell⟩, B.cells⟩, rfl⟩, B.rows⟩, hS⟩
    unfold envNode
    rw [← B.nodes, hlast, ← h1, hlen]
    rw [← h3]
    cases e <;> first | rfl | rw [h2 rfl]
  unfold endEnv at h
  simp only [ne_eq, not_true_eq_false, if_false, B.env] at h
  cases hm : Env.mode e with
  | none =>
    rw [hm] at h
    simp only [stateOf, Option.map_none] at h
    cases hc : e.constructNode ns spec none none o.line with
    | none => rw [hc] at h; cases h
    | some n =>
      rw [hc] at h
      cases h
      refine ⟨key _ _ _ ?_ ?_ hc, ?_, B.style.2⟩
      · rw [hm]; rfl
      · rintro rfl; cases hm
      · unfold envNumbers
        dsimp only at hB
        rw [hB, hm]; rfl
  | some m =>
    rw [hm] at h
    simp only [stateOf, Option.map_some] at h
    obtain ⟨⟨info, n', l2⟩, he, h⟩ := bind_ok h
    obtain ⟨h4, h5, h6, -, h7, -⟩ := endRow_spec (.inl rfl) he
    simp only at h
    cases hc : e.constructNode ns spec info n'.numRows o.line with
    | none => rw [hc] at h; cases h
    | some n =>
      rw [hc] at h
      cases h
      refine ⟨key _ _ _ ?_ ?_ hc, ?_, h7.2.trans B.style.2⟩
      · rw [hm, h4]; rfl
      · rintro rfl
        rw [h6]
        simp only [envState, envNumbering, Option.bind_some, Option.map_some, Nat.add_comm]
      · unfold envNumbers
        dsimp only at hB
        rw [hB, hm]
        exact h5

/-- What a page shows -/
theorem page_shows : ∀ (f : Form), f.page = true → ∀ (l : Loc), l.stacked = false → ∀ (prev nxt : Class) (ns : List Node) (l' : Loc),
    f.denote l prev nxt = .ok (ns, l') → PageShows f ⟨l.count, l.labels⟩ ns ⟨l'.count, l'.labels⟩
  | .nil, _, l, hk, prev, nxt, ns, l', hd => by
    simp only [Form.denote] at hd
    cases hd
    simp only [PageShows]
  | .item b s rest, h, l, hk, prev, nxt, ns, l', hd => by
    simp only [Form.page, Bool.and_eq_true] at h
    obtain ⟨h1, h2⟩ := h
    simp only [Form.denote] at hd
    obtain ⟨⟨r1, l1⟩, hd1, hd⟩ := bind_ok hd
    obtain ⟨⟨r2, l2⟩, hd2, hd⟩ := bind_ok hd
    obtain ⟨⟨r3, l3⟩, hd3, hd⟩ := bind_ok hd
    cases hd
    simp only [PageShows]
    split at h1
    · rename_i e e' o f
      simp only [Bool.and_eq_true, decide_eq_true_eq] at h1
      obtain ⟨rfl, h1⟩ := h1
      obtain ⟨q1, q2, q3⟩ := env_shows h1 hk hd1
      simp only [Scripts.denote] at hd2
      cases hd2
      refine ⟨?_, ?_⟩
      · have : withScripts r1.2 {} = r1.2 := by unfold withScripts; split <;> simp_all
        rw [this]
        exact q1
      · rw [← q2]
        exact page_shows rest h2 _ q3 _ _ _ _ hd3
    · rename_i hne
      simp only [Bool.and_eq_true] at h1
      obtain rfl := quiet_base_eq h1.1 hd1
      obtain rfl := quiet_scripts_eq h1.2 hd2
      have hu : tagsIn [withScripts r1.2 r2] = [] :=
        tagsIn_of_untag (untag_scripts (untag_base b h1.1 _ _ _ _ _ hd1) (untag_scrs s h1.2 _ _ _ _ untagBounds_empty hd2))
      exact ⟨hu, page_shows rest h2 _ hk _ _ _ _ hd3⟩
  | .bigOp o s rest, h, l, hk, prev, nxt, ns, l', hd => by
    simp only [Form.page, Bool.and_eq_true] at h
    simp only [Form.denote] at hd
    split at hd
    · obtain ⟨⟨r2, l2⟩, hd2, hd⟩ := bind_ok hd
      obtain ⟨⟨r3, l3⟩, hd3, hd⟩ := bind_ok hd
      cases hd
      obtain rfl := quiet_scripts_eq h.1 hd2
      simp only [PageShows]
      exact ⟨tagsIn_of_untag (untag_scripts untag_op (untag_scrs s h.1 _ _ _ _ untagBounds_empty hd2)),
        page_shows rest h.2 _ hk _ _ _ _ hd3⟩
    · obtain ⟨⟨r2, l2⟩, hd2, hd⟩ := bind_ok hd
      obtain ⟨⟨r3, l3⟩, hd3, hd⟩ := bind_ok hd
      cases hd
      obtain rfl := quiet_scripts_eq h.1 hd2
      simp only [PageShows]
      exact ⟨tagsIn_of_untag (untag_opNode untag_op (untag_scrs s h.1 _ _ _ _ untagBounds_empty hd2)),
        page_shows rest h.2 _ hk _ _ _ _ hd3⟩
  | .func name lim s rest, h, l, hk, prev, nxt, ns, l', hd => by
    simp only [Form.page, Bool.and_eq_true] at h
    simp only [Form.denote] at hd
    obtain ⟨⟨r2, l2⟩, hd2, hd⟩ := bind_ok hd
    obtain ⟨⟨r3, l3⟩, hd3, hd⟩ := bind_ok hd
    cases hd
    obtain rfl := quiet_scripts_eq h.1 hd2
    simp only [PageShows]
    exact ⟨tagsIn_of_untag (untag_opNode (untag_kids rfl (by intro k hk; cases hk)) (untag_scrs s h.1 _ _ _ _ untagBounds_empty hd2)),
      page_shows rest h.2 _ hk _ _ _ _ hd3⟩
  | .style st rest, h, l, hk, prev, nxt, ns, l', hd => by
    simp only [Form.page] at h
    have hq : (Form.style st rest).quiet false = true := by simpa [Form.quiet] using h
    have hl : l' = l := quiet_cell_eq hq hd
    have hu := untag_form _ false hq _ _ _ _ _ nofun hd
    simp only [Form.denote] at hd
    obtain ⟨⟨r2, l2⟩, hd2, hd⟩ := bind_ok hd
    cases hd
    simp only [PageShows]
    exact ⟨tagsIn_of_untag (hu _ (.head _)), by rw [← hl]⟩
  | .color st rest, h, l, hk, prev, nxt, ns, l', hd => by
    simp only [Form.page] at h
    have hq : (Form.color st rest).quiet false = true := by simpa [Form.quiet] using h
    have hl : l' = l := quiet_cell_eq hq hd
    have hu := untag_form _ false hq _ _ _ _ _ nofun hd
    simp only [Form.denote] at hd
    obtain ⟨c, -, hd⟩ := bind_ok hd
    obtain ⟨⟨r2, l2⟩, hd2, hd⟩ := bind_ok hd
    cases hd
    simp only [PageShows]
    exact ⟨tagsIn_of_untag (hu _ (.head _)), by rw [← hl]⟩
  | .amp _, h, _, _, _, _, _, _, _ => by simp [Form.page] at h
  | .newLine _ _, h, _, _, _, _, _, _, _ => by simp [Form.page] at h
  | .noNumber _, h, _, _, _, _, _, _, _ => by simp [Form.page] at h
  | .tag _ _ _, h, _, _, _, _, _, _, _ => by simp [Form.page] at h
  | .label _ _, h, _, _, _, _, _, _, _ => by simp [Form.page] at h

/-! ### What is written -/

theorem toItems_cell {cfg : EmitCfg} {c : List Node} (h : ∀ n ∈ c, isSeparator n = false) (rest : List Node) :
    toItems cfg (c ++ rest) = (toXmls cfg c).map .node ++ toItems cfg rest := by
  induction c with
  | nil => simp [toXmls]
  | cons n ns ih =>
    have hn := h n (.head _)
    rw [List.cons_append, toXmls, List.map_cons, List.cons_append, ← ih fun m hm => h m (.tail _ hm)]
    cases n <;> first | (cases hn; done) | simp only [toItems]

/-- Rows without separators in the cells -/
def PlainRow (r : ShownRow) : Prop := r.cells ≠ [] ∧ ∀ c ∈ r.cells, ∀ n ∈ c, isSeparator n = false

theorem rowsOf_cell (last : Option RowLabelInfo) (line : Option LineType) (xs : List Xml) (rest : List Item) :
    ∃ r rs, rowsOf last line rest = r :: rs ∧
      rowsOf last line (xs.map .node ++ rest) = xs.foldr (fun x r => TRow.cons x r) r :: rs := by
  induction xs with
  | nil =>
    cases h : rowsOf last line rest with
    | nil =>
      exfalso
      cases rest with
      | nil => simp [rowsOf] at h
      | cons it rest =>
        have hne : ∀ rest line, rowsOf last line rest ≠ [] := by
          intro rest
          induction rest with
          | nil => intro line; simp [rowsOf]
          | cons it rest ih =>
            intro line
            cases it with
            | node x => simp only [rowsOf]; cases h : rowsOf last line rest <;> simp_all [onFirst]
            | nextCell => simp only [rowsOf]; cases h : rowsOf last line rest <;> simp_all [onFirst]
            | nextRow _ _ => simp [rowsOf]
        exact hne _ _ h
    | cons r rs => exact ⟨r, rs, rfl, by simp [h]⟩
  | cons x xs ih =>
    obtain ⟨r, rs, h1, h2⟩ := ih
    refine ⟨r, rs, h1, ?_⟩
    simp only [List.map_cons, List.cons_append, rowsOf, h2, onFirst, List.foldr_cons]

theorem foldr_cons_row (xs : List Xml) (line : Option LineType) (label : Option RowLabelInfo) (c : List Xml) (cs : List (List Xml)) :
    xs.foldr (fun x r => TRow.cons x r) ⟨line, label, c :: cs⟩ = ⟨line, label, (xs ++ c) :: cs⟩ := by
  induction xs with
  | nil => rfl
  | cons x xs ih => rw [List.foldr_cons, ih]; rfl

theorem rowsOf_row (cfg : EmitCfg) (last : Option RowLabelInfo) (line : Option LineType) (rest : List Node) (label : Option RowLabelInfo) (rs : List TRow)
    (hrest : rowsOf last line (toItems cfg rest) = ⟨line, label, [[]]⟩ :: rs) :
    ∀ (cells : List (List Node)), cells ≠ [] → (∀ c ∈ cells, ∀ n ∈ c, isSeparator n = false) →
      rowsOf last line (toItems cfg (joinCells' cells ++ rest)) = ⟨line, label, cells.map (toXmls cfg)⟩ :: rs
  | [], h, _ => absurd rfl h
  | [c], _, h => by
    simp only [joinCells', toItems_cell (h c (.head _))]
    obtain ⟨r, rs', h1, h2⟩ := rowsOf_cell last line (toXmls cfg c) (toItems cfg rest)
    rw [hrest] at h1
    cases h1
    rw [h2, foldr_cons_row]
    simp
  | c :: c' :: cs, _, h => by
    have ih := rowsOf_row cfg last line rest label rs hrest (c' :: cs) (by simp) fun d hd => h d (.tail _ hd)
    simp only [joinCells', List.append_assoc, List.cons_append, toItems_cell (h c (.head _))]
    obtain ⟨r, rs', h1, h2⟩ := rowsOf_cell last line (toXmls cfg c) (toItems cfg (.columnSeparator :: (joinCells' (c' :: cs) ++ rest)))
    have hx : rowsOf last line (toItems cfg (.columnSeparator :: (joinCells' (c' :: cs) ++ rest))) =
        ⟨line, label, [] :: (c' :: cs).map (toXmls cfg)⟩ :: rs := by
      simp only [toItems, rowsOf, ih, onFirst, TRow.consCell]
    rw [hx] at h1
    cases h1
    rw [h2, foldr_cons_row]
    simp

/-- The rows which are written are those which are shown. -/
theorem rowsOf_shown (cfg : EmitCfg) : ∀ (rows : List ShownRow), rows ≠ [] → (∀ r ∈ rows, PlainRow r) →
    rowsOf (rows.getLast?.bind (·.info)) (rows.head?.bind (·.line)) (toItems cfg (joinShown rows)) = rows.map (ShownRow.written cfg)
  | [], h, _ => absurd rfl h
  | [r], _, h => by
    have hr := h r (.head _)
    have := rowsOf_row cfg r.info r.line [] r.info [] (by simp [toItems, rowsOf]) r.cells hr.1 hr.2
    simp only [List.append_nil] at this
    simpa [joinShown, ShownRow.written] using this
  | r :: s :: rows, _, h => by
    have hr := h r (.head _)
    have ih := rowsOf_shown cfg (s :: rows) (by simp) fun q hq => h q (.tail _ hq)
    have hl : (r :: s :: rows).getLast?.bind (·.info) = (s :: rows).getLast?.bind (·.info) := by simp
    rw [hl]
    simp only [joinShown]
    simp only [List.head?_cons, Option.bind_some] at ih ⊢
    rw [rowsOf_row cfg _ _ (.rowSeparator r.info s.line :: joinShown (s :: rows)) r.info ((s :: rows).map (ShownRow.written cfg))
      (by simp only [toItems, rowsOf, ih]) r.cells hr.1 hr.2]
    rfl

theorem numberRows_none (c : Counters) (ev : RowEvents) (evs : List RowEvents) :
    ∀ i ∈ (numberRows none c ev evs).1, i = none := by
  induction evs generalizing ev with
  | nil => simp [numberRows]
  | cons ev' evs ih => simpa [numberRows] using ih ev'

theorem envNode_xml (cfg : EmitCfg) {e : Env} {o : EnvArgs} {spec : Option ArraySpec} {rows : List ShownRow} {n : Node}
    (hspec : o.columns e = .ok spec) (hne : rows ≠ []) (hp : ∀ r ∈ rows, PlainRow r)
    (hi : Env.mode e = none → rows.getLast?.bind (·.info) = none) (hh : rows.head?.bind (·.line) = none)
    (h : envNode e spec o.line rows = some n) :
    envXml cfg e spec o.line (rows.map (ShownRow.written cfg)) = some (toXml cfg n) := by
  have hr := rowsOf_shown cfg rows hne hp
  rw [hh] at hr
  have hb : ∀ s, spec = some s → s.borderTop = o.line := by
    rintro s rfl
    unfold EnvArgs.columns at hspec
    split at hspec
    · cases hspec
    · split at hspec
      · cases hspec; rfl
      · cases hspec
  unfold envNode at h
  cases e <;> simp only [Env.constructNode, Env.constructNode.matrixNode, Option.map_eq_some_iff] at h
  all_goals first
    | (cases h; simp only [envXml, toXml, Option.getD_some, hr, List.length_map]; done)
    | (obtain ⟨s, rfl, rfl⟩ := h
       rw [hi (by rfl)] at hr
       simp only [envXml, toXml, Option.map_some, hr, hb s rfl])
    | (cases h
       rw [hi (by rfl)] at hr
       have hc : rowCss {} = [] := rfl
       have hs : styleAttrs none = [] := rfl
       clear hb hspec hi
       generalize o.line = line
       cases line <;> simp [envXml, toXml, fenced, hr, toXmls, styleAttr, lineCss, el, hc, hs, Env.allowsHlines])

/-- No call is directly in the formula. -/
def callless : Form → Bool
  | .nil | .style _ _ | .color _ _ => true
  | .item _ _ rest | .bigOp _ _ rest | .func _ _ _ rest | .amp rest | .newLine _ rest | .noNumber rest | .tag _ _ rest
  | .label _ rest => callless rest
  | .call _ _ _ _ | .emptyCall _ _ _ _ => false

theorem simpleRows_callless : ∀ (f : Form), (∀ mid, f.simpleRows mid = true → callless f = true) ∧
    (f.endsCell = true → callless f = true)
  | .nil | .style _ _ | .color _ _ => by simp [callless]
  | .item _ _ rest | .bigOp _ _ rest | .func _ _ _ rest => by
    refine ⟨fun mid h => ?_, by simp [Form.endsCell]⟩
    simp only [Form.simpleRows, Bool.and_eq_true] at h
    exact (simpleRows_callless rest).1 _ h.2
  | .amp rest | .newLine _ rest => by
    simp only [Form.simpleRows, Form.endsCell]
    exact ⟨fun _ h => (simpleRows_callless rest).1 _ h, fun h => (simpleRows_callless rest).1 _ h⟩
  | .noNumber rest | .tag _ _ rest | .label _ rest => by
    simp only [Form.simpleRows, Form.endsCell]
    refine ⟨fun mid h => ?_, fun h => (simpleRows_callless rest).2 h⟩
    cases mid
    · exact (simpleRows_callless rest).1 _ h
    · exact (simpleRows_callless rest).2 h
  | .call _ _ _ _ | .emptyCall _ _ _ _ => by simp [Form.simpleRows, Form.endsCell]

/-- The cells of a harmless formula are harmless. -/
theorem split_tame : ∀ (f : Form), f.tame true = true → callless f = true →
    f.split.cell.tame false = true ∧ (∀ c ∈ f.split.cells, c.tame false = true) ∧
      ∀ r ∈ f.split.rows, ∀ c ∈ r.cells, c.tame false = true
  | .nil, _, _ => by simp [Form.split, Form.tame]
  | .item b s rest, h, hc | .bigOp o s rest, h, hc | .func name lim s rest, h, hc => by
    simp only [Form.tame, Bool.and_eq_true] at h
    obtain ⟨i1, i2, i3⟩ := split_tame rest h.2 hc
    simp [Form.split, Form.tame, h, i1]
    exact ⟨i2, i3⟩
  | .amp rest, h, hc => by
    simp only [Form.tame, Bool.true_and] at h
    obtain ⟨i1, i2, i3⟩ := split_tame rest h hc
    simp [Form.split, Form.tame, i1]
    exact ⟨i2, i3⟩
  | .newLine _ rest, h, hc => by
    simp only [Form.tame, Bool.true_and] at h
    obtain ⟨i1, i2, i3⟩ := split_tame rest h hc
    simp [Form.split, Form.tame, Split.all, Split.row, i1]
    exact ⟨i2, i3⟩
  | .noNumber rest, h, hc | .tag _ _ rest, h, hc | .label _ rest, h, hc => by
    simp only [Form.tame] at h
    simpa [Form.split] using split_tame rest h hc
  | .style s rest, h, hc | .color s rest, h, hc => by
    simp only [Form.tame] at h
    simp [Form.split, Form.tame, h]
  | .call _ _ _ _, _, hc | .emptyCall _ _ _ _, _, hc => by simp [callless] at hc

theorem cellsMean_plain {st : Style} : ∀ {prev : Class} {fs : List Form} {cs : List (List Node)}, CellsMean st prev fs cs →
    (∀ f ∈ fs, f.tame false = true) → ∀ c ∈ cs, ∀ n ∈ c, isSeparator n = false
  | _, [], [], _, _ => nofun
  | prev, f :: fs, c :: cs, h, ht => by
    obtain ⟨⟨nxt, -, h1⟩, h2⟩ := h
    intro d hd
    cases hd with
    | head =>
      have hg := tame_form f false (ht f (.head _)) _ _ _ _ _ (h1 ⟨st, {}, 0, [], 0, false⟩ ⟨rfl, rfl⟩)
      exact fun n hn => (hg n hn).1 rfl
    | tail _ hd => exact cellsMean_plain h2 (fun g hg => ht g (.tail _ hg)) d hd
  | _, [], _ :: _, h, _ => h.elim
  | _, _ :: _, [], h, _ => h.elim

theorem rowsMean_plain {st : Style} : ∀ {prev : Class} {rs : List SrcRow} {ss : List ShownRow}, RowsMean st prev rs ss →
    (∀ r ∈ rs, r.cells ≠ [] ∧ ∀ f ∈ r.cells, f.tame false = true) → ∀ s ∈ ss, PlainRow s
  | _, [], [], _, _ => nofun
  | prev, r :: rs, s :: ss, h, ht => by
    obtain ⟨h1, h2⟩ := h
    intro q hq
    cases hq with
    | head =>
      obtain ⟨hne, htt⟩ := ht r (.head _)
      refine ⟨?_, cellsMean_plain h1.1 htt⟩
      intro hs
      rw [hs] at h1
      cases hr : r.cells with
      | nil => exact hne hr
      | cons => rw [hr] at h1; exact h1.1.elim
    | tail _ hq => exact rowsMean_plain h2 (fun g hg => ht g (.tail _ hg)) q hq
  | _, [], _ :: _, h, _ => h.elim
  | _, _ :: _, [], h, _ => h.elim

theorem split_cells_ne : ∀ (f : Form), ∀ r ∈ f.split.rows, r.cells ≠ []
  | .nil => by simp [Form.split]
  | .item _ _ rest | .bigOp _ _ rest | .func _ _ _ rest | .amp rest | .noNumber rest | .tag _ _ rest | .label _ rest => by
    simpa [Form.split] using split_cells_ne rest
  | .newLine _ rest => by
    simp only [Form.split, Split.all, Split.row, List.mem_cons]
    rintro r (rfl | hr)
    · exact List.cons_ne_nil _ _
    · exact split_cells_ne rest r hr
  | .style _ _ | .color _ _ | .call _ _ _ _ | .emptyCall _ _ _ _ => by simp [Form.split]

theorem rowsMean_ne {st : Style} {prev : Class} {r : SrcRow} {rs : List SrcRow} {ss : List ShownRow}
    (h : RowsMean st prev (r :: rs) ss) : ss ≠ [] := by
  rintro rfl
  exact h.elim

/-- The line above the first row -/
theorem rowsMean_first {st : Style} {prev : Class} {r : SrcRow} {rs : List SrcRow} {ss : List ShownRow}
    (h : RowsMean st prev (r :: rs) ss) (hr : r.line = none) : ss.head?.bind (·.line) = none := by
  cases ss with
  | nil => rfl
  | cons s ss => exact h.1.2.symm.trans hr

/-- What is written for an environment -/
theorem env_written (cfg : EmitCfg) {e : Env} {o : EnvArgs} {f : Form} {c : Counters} {n : Node} (ht : f.tame true = true)
    (hc : callless f = true) (h : EnvShows e o f c n) : EnvWritten cfg e o f c (toXml cfg n) := by
  obtain ⟨spec, rows, h0, h1, h2, h3⟩ := h
  obtain ⟨t1, t2, t3⟩ := split_tame f ht hc
  have hne : rows ≠ [] := rowsMean_ne h2
  refine ⟨spec, rows, h0, envNode_xml cfg h0 hne (rowsMean_plain h2 ?_) ?_ (rowsMean_first h2 rfl) h1, h2, h3⟩
  · intro r hr
    rcases List.mem_cons.1 hr with rfl | hr
    · refine ⟨List.cons_ne_nil _ _, fun f hf => ?_⟩
      rcases List.mem_cons.1 hf with rfl | hf
      · exact t1
      · exact t2 _ hf
    · exact ⟨split_cells_ne f r hr, t3 r hr⟩
  · intro hm
    cases hl : rows.getLast? with
    | none => rfl
    | some r =>
      refine numberRows_none c f.split.events (f.split.rows.map (·.events)) r.info ?_
      have : r.info ∈ rows.map (·.info) := List.mem_map_of_mem (List.mem_of_getLast? hl)
      rw [h3] at this
      unfold envNumbers at this
      rw [hm] at this
      exact this

theorem page_written (cfg : EmitCfg) : ∀ (f : Form) (c : Counters) (ns : List Node) (c' : Counters), f.tame false = true →
    f.page = true → PageShows f c ns c' → PageWritten cfg f c (toXmls cfg ns) c'
  | .nil, c, ns, c', _, _, h => by
    cases ns <;> simp only [PageShows] at h
    simpa [PageWritten, toXmls] using h
  | .item b s rest, c, ns, c', ht, hp, h => by
    simp only [Form.tame, Bool.and_eq_true] at ht
    simp only [Form.page, Bool.and_eq_true] at hp
    cases ns with
    | nil => simp only [PageShows] at h
    | cons n ns =>
      simp only [PageShows] at h
      simp only [PageWritten, toXmls]
      split at h
      · exact ⟨env_written cfg (by simpa [Base.tame] using ht.1.1) (by
          simp only [simpleEnv, Bool.and_eq_true] at hp
          exact (simpleRows_callless _).1 _ hp.1.2.1.1) h.1, page_written cfg rest _ _ _ ht.2 hp.2 h.2⟩
      · exact page_written cfg rest _ _ _ ht.2 hp.2 h.2
  | .bigOp o s rest, c, ns, c', ht, hp, h | .func name lim s rest, c, ns, c', ht, hp, h => by
    simp only [Form.tame, Bool.and_eq_true] at ht
    simp only [Form.page, Bool.and_eq_true] at hp
    cases ns with
    | nil => simp only [PageShows] at h
    | cons n ns =>
      simp only [PageShows] at h
      simp only [PageWritten, toXmls]
      exact page_written cfg rest _ _ _ ht.2 hp.2 h.2
  | .style s rest, c, ns, c', ht, hp, h | .color s rest, c, ns, c', ht, hp, h => by
    match ns, h with
    | [n], h => simp only [PageShows] at h; simpa only [PageWritten, toXmls] using h.2
  | .amp _, c, ns, c', ht, hp, h | .newLine _ _, c, ns, c', ht, hp, h | .noNumber _, c, ns, c', ht, hp, h | .tag _ _ _, c, ns, c', ht, hp, h
  | .label _ _, c, ns, c', ht, hp, h => by cases ns <;> simp only [PageShows] at h

end Verif

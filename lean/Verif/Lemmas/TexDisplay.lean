import Verif.Lemmas.TexMain
import Verif.Lemmas.TexPrint
import Verif.Spec.Display
/-! Displays of LaTeX are formulas of the grammar whose rows are numbered as in LaTeX. -/
namespace Verif
open Model Spec

/-! ### Commands -/

/-- The tokens of the commands about numbers -/
theorem notes_known : fixedTok c!"nonumber" = some .noNumber ∧ fixedTok c!"notag" = some .noNumber ∧
    fixedTok c!"tag" = some (.tag true) ∧ fixedTok c!"tag*" = some (.tag false) ∧ fixedTok c!"label" = some .label := by
  have h : ∀ {o : Option Token} {t : Token}, (match o with | some t' => sameTok t' t | none => false) = true → o = some t := by
    intro o t h
    cases o with
    | none => cases h
    | some t' => rw [sameTok_eq h]
  refine ⟨h ?_, h ?_, h ?_, h ?_, h ?_⟩ <;> decide +kernel

/-! ### Forms -/

theorem ends_simple : (f : Form) → f.endsCell = true → ∀ m, f.simpleRows m = true
  | .nil, _, _ => rfl
  | .amp _, h, _ => h
  | .newLine _ _, h, _ => h
  | .noNumber r, h, m | .tag _ _ r, h, m | .label _ r, h, m => by
    cases m with
    | true => exact h
    | false => exact ends_simple r h false
  | .item _ _ _, h, _ | .bigOp _ _ _, h, _ | .func _ _ _ _, h, _ | .style _ _, h, _ | .color _ _, h, _ | .call _ _ _ _, h, _
  | .emptyCall _ _ _ _, h, _ => by cases h

/-- Where numbers are possible -/
structure RowReady (l : Loc) (columns several : Bool) (labelled : Bool) (rows : Nat) : Prop where
  numbered : ∃ n, l.env.numbered = some n ∧ (labelled = true → n.label = none) ∧ ∀ r, n.numRows = some r → r + rows ≤ 65535
  columns : columns = true → l.env.allowColumns = true
  several : several = true → l.env.meaningfulNewlines = true
  count : l.count + rows < usizeMax

/-- Lines of a display which are right: `ls` is how they are written, `cells` are the cells of the first line and `rows` those of the others,
`ev` and `evs` is what is said about the numbers. -/
structure LinesGood (ls : List Lexeme) (cells : List (List Tree)) (rows : List (List (List Tree))) (ev : RowEvents)
    (evs : List RowEvents) (columns several : Bool) (f : Form) : Prop where
  fixed : ∀ l ∈ ls, l.fixed = true
  tokens : f.tokens = tks ls
  ok : f.ok false = true
  linked : ∀ M, f.linked M
  tame : f.tame true = true
  unbroken : f.unbroken = true
  single : columns = false → several = false → f.tame false = true
  events : f.split.events = ev
  others : f.split.rows.map (·.events) = evs
  runs : ∀ l nxt, RowReady l columns several ev.label.isSome evs.length →
    ∃ l' n, (∀ p, ∃ ns, f.denote l p nxt = .ok (ns, l')) ∧ l'.env.numbered = some n ∧ l'.count < usizeMax
  rows : ∀ labels, ∃ cell cs rest, rowsOfPieces (f.pieces labels) = (cell :: cs) :: rest ∧
    (cell :: cs).map Shape.trees = cells ∧ rowTrees rest = rows

variable {ls lr : List Lexeme} {ts : List Tree} {cells : List (List Tree)} {rows : List (List (List Tree))} {ev : RowEvents}
  {evs : List RowEvents} {columns several : Bool} {f k : Form}

theorem lines_nil : LinesGood [] [[]] [] {} [] columns several .nil :=
  ⟨nofun, rfl, rfl, fun _ => trivial, rfl, rfl, fun _ _ => rfl, rfl, rfl, fun l _ h => by
    obtain ⟨n, h1, -⟩ := h.numbered
    exact ⟨l, n, fun _ => ⟨_, rfl⟩, h1, by have := h.count; simp only [List.length_nil] at this; omega⟩,
    fun _ => ⟨[], [], [], rfl, rfl, rfl⟩⟩

theorem lines_cell (hk : LinesGood lr ([] :: cells) rows ev evs columns several k) (h : Extends ls ts false k f) :
    LinesGood (ls ++ lr) (ts :: cells) rows ev evs columns several f := by
  refine ⟨fixed_append h.fixed hk.fixed, ?_, h.ok hk.ok, fun M => h.linked M (hk.linked M), h.tame _ hk.tame, h.unbroken hk.unbroken,
    fun a b => h.tame _ (hk.single a b), h.split.1.trans hk.events, by rw [h.split.2, hk.others], fun l nxt hr => ?_, fun labels => ?_⟩
  · rw [h.tokens, tks_append, hk.tokens]
  · obtain ⟨l', n, h1, h2⟩ := hk.runs l nxt hr
    exact ⟨l', n, h.steady l l' nxt h1, h2⟩
  · obtain ⟨ss, e1, e2, -⟩ := h.pieces labels
    obtain ⟨cell, cs, rest, k1, k2, k3⟩ := hk.rows labels
    refine ⟨ss ++ cell, cs, rest, by rw [e1, rows_shapes ss _ k1], ?_, k3⟩
    rw [List.map_cons] at k2 ⊢
    obtain ⟨k2, k4⟩ := List.cons.inj k2
    rw [trees_append, e2, k2, k4, List.append_nil]

theorem lines_amp (hk : LinesGood lr cells rows ev evs true several k) :
    LinesGood (.char '&' :: lr) ([] :: cells) rows ev evs true several (.amp k) := by
  refine ⟨fixed_cons rfl hk.fixed, ?_, hk.ok, hk.linked, hk.tame, hk.unbroken, nofun, hk.events, hk.others, fun l nxt hr => ?_, fun labels => ?_⟩
  · show _ :: k.tokens = _
    rw [hk.tokens]
    rfl
  · obtain ⟨l', n, h1, h2⟩ := hk.runs l nxt hr
    refine ⟨l', n, fun p => ?_, h2⟩
    obtain ⟨ns, hn⟩ := h1 .closing
    unfold Form.denote
    rw [hr.columns rfl, hn]
    exact ⟨_, rfl⟩
  · obtain ⟨cell, cs, rest, k1, k2, k3⟩ := hk.rows labels
    refine ⟨[], cell :: cs, rest, ?_, by rw [List.map_cons, k2]; rfl, k3⟩
    show rowsOfPieces (.nextCell :: k.pieces labels) = _
    unfold rowsOfPieces
    rw [k1]

/-- The end of a row -/
theorem endRow_runs (n : RowState) (isLast : Bool) (l : Loc) (h : l.count < usizeMax) :
    ∃ r, endRow n isLast l = .ok r ∧ r.2.1.label = none ∧ r.2.1.numRows = n.numRows ∧ r.2.2.count ≤ l.count + 1 ∧
      r.2.2.env = l.env := by
  unfold endRow NumberedEnvState.nextEquationTag
  split
  · rename_i h'
    split at h'
    · cases h'
    · split at h'
      · cases h'
      · split at h'
        · cases h'
        · cases h'
  · rename_i h'
    split at h'
    · cases h'; exact ⟨_, rfl, rfl, rfl, Nat.le_succ _, rfl⟩
    · split at h'
      · cases h'; exact ⟨_, rfl, rfl, rfl, Nat.le_succ _, rfl⟩
      · split at h'
        · cases h'; exact ⟨_, rfl, rfl, rfl, Nat.le_succ _, rfl⟩
        · cases h'; exact ⟨_, rfl, rfl, rfl, Nat.le_refl _, rfl⟩

theorem lines_newLine (hk : LinesGood lr cells rows ev evs columns true k) :
    LinesGood (.command c!"\\" :: lr) [[]] (cells :: rows) {} (ev :: evs) columns true (.newLine none k) := by
  have hc := structure_known.2.2.2.2.2.2
  refine ⟨fixed_cons (fixed_cmd hc) hk.fixed, ?_, hk.ok, hk.linked, hk.tame, hk.unbroken, nofun, rfl, ?_, fun l nxt hr => ?_,
    fun labels => ?_⟩
  · rw [tks_cons, tok_cmd hc, ← hk.tokens]
    rfl
  · show k.split.events :: k.split.rows.map (·.events) = _
    rw [hk.events, hk.others]
  · obtain ⟨n, h1, -, h3⟩ := hr.numbered
    have h4 := hr.count
    simp only [List.length_cons] at h3 h4
    obtain ⟨r, e1, e2, e3, e4, e5⟩ := endRow_runs { n with numRows := n.numRows.map (· + 1) } false l (by omega)
    have hb : lineBreak none l = .ok ((.opening, .rowSeparator r.1 none), { r.2.2 with env := { l.env with numbered := some r.2.1 } }) := by
      unfold lineBreak
      rw [hr.several rfl, h1]
      have : n.numRows ≠ some 65535 := fun e => by have := h3 _ e; omega
      dsimp only
      rw [if_neg (by decide), if_neg this, e1]
      rfl
    obtain ⟨l', m, g1, g2⟩ := hk.runs { r.2.2 with env := { l.env with numbered := some r.2.1 } } nxt
      ⟨⟨r.2.1, rfl, fun _ => e2, fun q hq => by
        rw [e3] at hq
        obtain ⟨q', h5, rfl⟩ := Option.map_eq_some_iff.1 hq
        have := h3 q' h5
        omega⟩, hr.columns, hr.several, by show r.2.2.count + _ < _; omega⟩
    refine ⟨l', m, fun p => ?_, g2⟩
    obtain ⟨ns, hn⟩ := g1 .opening
    unfold Form.denote
    rw [show nextRow none l = _ from hb]
    show ∃ ns', (Form.denote k _ _ nxt >>= fun rr => Except.ok (_ :: rr.1, rr.2)) = Except.ok (ns', l')
    rw [hn]
    exact ⟨_, rfl⟩
  · obtain ⟨cell, cs, rest, k1, k2, k3⟩ := hk.rows labels
    refine ⟨[], [], (cell :: cs) :: rest, ?_, rfl, ?_⟩
    · show rowsOfPieces (.nextRow :: k.pieces labels) = _
      unfold rowsOfPieces
      rw [k1]
    · show (cell :: cs).map Shape.trees :: rowTrees rest = _
      rw [k2, k3]

theorem lines_without {name : Str} (hn : name ∈ [c!"nonumber", c!"notag"]) (hk : LinesGood lr cells rows ev evs columns several k) :
    LinesGood (.command name :: lr) cells rows { ev with noNumber := true } evs columns several (.noNumber k) := by
  have hc : fixedTok name = some .noNumber := by
    simp only [List.mem_cons, List.not_mem_nil, or_false] at hn
    rcases hn with rfl | rfl
    · exact notes_known.1
    · exact notes_known.2.1
  refine ⟨fixed_cons (fixed_cmd hc) hk.fixed, ?_, hk.ok, hk.linked, hk.tame, hk.unbroken, hk.single, ?_, hk.others, fun l nxt hr => ?_, hk.rows⟩
  · rw [tks_cons, tok_cmd hc, ← hk.tokens]
    rfl
  · show { k.split.events with noNumber := true } = _
    rw [hk.events]
  · obtain ⟨n, h1, h2, h3⟩ := hr.numbered
    obtain ⟨l', m, g1, g2⟩ := hk.runs (suppressNumber l) nxt ⟨⟨{ n with suppressNextNumber := true }, by
      show l.env.numbered.map _ = _
      rw [h1]
      rfl, h2, h3⟩, hr.columns, hr.several, hr.count⟩
    exact ⟨l', m, fun p => g1 p, g2⟩

theorem lines_tag {starred : Bool} {text : Str} (ht : text.all isTagChar = true) (hk : LinesGood lr cells rows ev evs columns several k)
    (he : ev.tag = none) :
    LinesGood (.command (if starred then c!"tag*" else c!"tag") :: (Lexeme.textIn text ++ lr)) cells rows
      { ev with tag := some ⟨text, !starred⟩ } evs columns several (.tag (!starred) (text.map Lexer.charToken) k) := by
  have hc : fixedTok (if starred then c!"tag*" else c!"tag") = some (.tag (!starred)) := by
    cases starred
    · exact notes_known.2.2.1
    · exact notes_known.2.2.2.1
  refine ⟨fixed_cons (fixed_cmd hc) (fixed_append (textIn_fixed text) hk.fixed), ?_, ?_, hk.linked, hk.tame, hk.unbroken, hk.single, ?_,
    hk.others, fun l nxt hr => ?_, hk.rows⟩
  · rw [tks_cons, tok_cmd hc, tks_append, tks_textIn, ← hk.tokens, List.cons_append, List.append_assoc]
    rfl
  · show ((plainText _).isSome && k.ok false) = true
    rw [tag_text ht, hk.ok]
    rfl
  · simp only [Form.split, hk.events, tag_text ht, he]
    rfl
  · obtain ⟨n, h1, h2, h3⟩ := hr.numbered
    have hp : putTag (!starred) ((plainText (text.map Lexer.charToken)).getD []) l = .ok { l with env := { l.env with
        numbered := some { n with customNextTag := some ⟨text, !starred⟩ } } } := by
      unfold putTag
      rw [h1, tag_text ht]
      rfl
    obtain ⟨l', m, g1, g2⟩ := hk.runs { l with env := { l.env with numbered := some { n with customNextTag := some ⟨text, !starred⟩ } } } nxt
      ⟨⟨_, rfl, h2, h3⟩, hr.columns, hr.several, hr.count⟩
    refine ⟨l', m, fun p => ?_, g2⟩
    unfold Form.denote
    rw [hp]
    exact g1 p

theorem lines_label {text : Str} (ht : text.all isTagChar = true) (hk : LinesGood lr cells rows ev evs columns several k)
    (he : ev.label = none) :
    LinesGood (.command c!"label" :: (Lexeme.textIn text ++ lr)) cells rows
      { ev with label := some text } evs columns several (.label (text.map Lexer.charToken) k) := by
  have hc := notes_known.2.2.2.2
  refine ⟨fixed_cons (fixed_cmd hc) (fixed_append (textIn_fixed text) hk.fixed), ?_, ?_, hk.linked, hk.tame, hk.unbroken, hk.single, ?_,
    hk.others, fun l nxt hr => ?_, hk.rows⟩
  · rw [tks_cons, tok_cmd hc, tks_append, tks_textIn, ← hk.tokens, List.cons_append, List.append_assoc]
    rfl
  · show ((plainText _).isSome && k.ok false) = true
    rw [tag_text ht, hk.ok]
    rfl
  · simp only [Form.split, hk.events, tag_text ht]
    rfl
  · obtain ⟨n, h1, h2, h3⟩ := hr.numbered
    have hp : putLabel ((plainText (text.map Lexer.charToken)).getD []) l = .ok { l with env := { l.env with
        numbered := some { n with label := some text } } } := by
      unfold putLabel
      rw [h1, tag_text ht]
      dsimp only
      rw [h2 rfl]
      rfl
    obtain ⟨l', m, g1, g2⟩ := hk.runs { l with env := { l.env with numbered := some { n with label := some text } } } nxt
      ⟨⟨_, rfl, fun h => (by rw [he] at h; cases h), h3⟩, hr.columns, hr.several, hr.count⟩
    refine ⟨l', m, fun p => ?_, g2⟩
    unfold Form.denote
    rw [hp]
    exact g1 p

/-! ### Lines -/

theorem ends_stops : (f : Form) → f.endsCell = true → stops f
  | .nil, _ | .amp _, _ | .newLine _ _, _ | .noNumber _, _ | .tag _ _ _, _ | .label _ _, _ => ⟨rfl, rfl⟩
  | .item _ _ _, h | .bigOp _ _ _, h | .func _ _ _ _, h | .style _ _, h | .color _ _, h | .call _ _ _ _, h
  | .emptyCall _ _ _ _, h => by cases h

/-- What is said about the number of a line -/
def markEvents : LineMark → RowEvents
  | .automatic => {}
  | .without _ => { noNumber := true }
  | .tagged starred text => { tag := some ⟨text, !starred⟩ }

/-- What is said about the number of a line, and its label -/
def lineEvents (l : DisplayLine) : RowEvents := { markEvents l.mark with label := l.label }

theorem mark_form (m : LineMark) (hm : m.proper = true) (hk : LinesGood lr [[]] rows ev evs columns several k) (he : k.endsCell = true)
    (hv : ev.tag = none ∧ ev.noNumber = false) :
    ∃ f, LinesGood (m.lexemes ++ lr) [[]] rows { markEvents m with label := ev.label } evs columns several f ∧ f.endsCell = true := by
  obtain ⟨tag, no, label⟩ := ev
  obtain ⟨rfl, rfl⟩ := hv
  cases m with
  | automatic => exact ⟨k, hk, he⟩
  | without name => exact ⟨_, lines_without (of_decide_eq_true hm) hk, he⟩
  | tagged starred text => exact ⟨_, lines_tag hm hk rfl, he⟩

theorem cells_form (cell : Tex) (cells : List Tex) (hc : (cell :: cells).all (·.proper false true) = true)
    (hcol : columns = true ∨ cells = []) (hk : LinesGood lr [[]] rows ev evs columns several k) (he : k.endsCell = true) :
    ∃ f, LinesGood (cellLexemes cell cells ++ lr) ((cell :: cells).map Tex.trees) rows ev evs columns several f ∧
      ∀ m, f.simpleRows m = true := by
  induction cells generalizing cell with
  | nil =>
    rw [List.all_cons, Bool.and_eq_true] at hc
    obtain ⟨f, hf⟩ := tex_form false true cell hc.1 k (ends_stops k he) nofun
    exact ⟨f, lines_cell hk hf, hf.simple (solid_calm (tex_print false true cell hc.1)) (ends_simple k he)⟩
  | cons g rest ih =>
    rw [List.all_cons, Bool.and_eq_true] at hc
    obtain rfl : columns = true := hcol.resolve_right nofun
    obtain ⟨r, hr, hs⟩ := ih g hc.2 (.inl rfl)
    obtain ⟨f, hf⟩ := tex_form false true cell hc.1 (.amp r) (stops_amp r) nofun
    refine ⟨f, ?_, hf.simple (solid_calm (tex_print false true cell hc.1)) fun _ => hs false⟩
    have := lines_cell (lines_amp hr) hf
    unfold cellLexemes
    rw [List.append_assoc]
    exact this

theorem line_form (l : DisplayLine) (hc : (l.cell :: l.cells).all (·.proper false true) = true) (hcol : columns = true ∨ l.cells = [])
    (hm : l.mark.proper = true) (hl : (l.label.all fun s => s.all isTagChar) = true)
    (hk : LinesGood lr [[]] rows {} evs columns several k) (he : k.endsCell = true) :
    ∃ f, LinesGood (l.lexemes ++ lr) ((l.cell :: l.cells).map Tex.trees) rows (lineEvents l) evs columns several f ∧
      f.simpleRows false = true := by
  obtain ⟨cell, cells, mark, label, early⟩ := l
  unfold DisplayLine.lexemes lineEvents
  dsimp only at *
  cases label with
  | none =>
    obtain ⟨g, hg, ge⟩ := mark_form mark hm hk he ⟨rfl, rfl⟩
    obtain ⟨f, hf, fs⟩ := cells_form cell cells hc hcol hg ge
    refine ⟨f, ?_, fs false⟩
    cases early <;> simpa [labelLexemes] using hf
  | some s =>
    cases early with
    | true =>
      obtain ⟨g, hg, ge⟩ := mark_form mark hm hk he ⟨rfl, rfl⟩
      obtain ⟨f, hf, fs⟩ := cells_form cell cells hc hcol hg ge
      have := lines_label hl hf rfl
      exact ⟨.label (s.map Lexer.charToken) f, by simpa [labelLexemes] using this, fs false⟩
    | false =>
      obtain ⟨g, hg, ge⟩ := mark_form mark hm (lines_label hl hk rfl) he ⟨rfl, rfl⟩
      obtain ⟨f, hf, fs⟩ := cells_form cell cells hc hcol hg ge
      exact ⟨f, by simpa [labelLexemes] using hf, fs false⟩

theorem lines_form (row : DisplayRow) (l : DisplayLine) (rest : List DisplayLine) (h : linesProper row l rest = true) :
    ∃ f, LinesGood (lineLexemes l rest) ((l.cell :: l.cells).map Tex.trees) (rest.map fun l => (l.cell :: l.cells).map Tex.trees)
      (lineEvents l) (rest.map lineEvents) row.columns row.rows f ∧ f.simpleRows false = true := by
  induction rest generalizing l with
  | nil =>
    unfold linesProper DisplayLine.proper at h
    simp only [Bool.and_eq_true, Bool.or_eq_true, List.isEmpty_iff] at h
    obtain ⟨⟨⟨⟨⟨h1, h2⟩, h3⟩, h4⟩, -⟩, -⟩ := h
    obtain ⟨f, hf, hs⟩ := line_form l h1 h2 h3 h4 lines_nil rfl
    rw [List.append_nil] at hf
    exact ⟨f, hf, hs⟩
  | cons m rest ih =>
    unfold linesProper at h
    simp only [Bool.and_eq_true] at h
    obtain ⟨⟨⟨hr, h⟩, hrest⟩, -⟩ := h
    unfold DisplayLine.proper at h
    simp only [Bool.and_eq_true, Bool.or_eq_true, List.isEmpty_iff] at h
    obtain ⟨⟨⟨⟨⟨h1, h2⟩, h3⟩, h4⟩, -⟩, -⟩ := h
    obtain ⟨k, hk, ks⟩ := ih m hrest
    rw [hr] at hk ⊢
    obtain ⟨f, hf, hs⟩ := line_form l h1 h2 h3 h4 (lines_newLine hk) ks
    exact ⟨f, hf, hs⟩

/-! ### Numbers -/

/-- How the rows are numbered -/
def modeOf : WhichRows → NumberingMode
  | .every => .allByDefault
  | .last => .onlyLast
  | .none => .noneByDefault

/-- What is known about the environments of displays -/
theorem displays_known : (displayRows.all fun r => match Env.fromStr r.name with
    | some e => noSpec e && decide (envNumbering e = some (modeOf r.numbered)) && envColumns e == r.columns && envRows e == r.rows &&
        (envDelims e).isNone
    | none => false) = true := by decide +kernel

theorem display_known {r : DisplayRow} (h : r ∈ displayRows) : ∃ e, Env.fromStr r.name = some e ∧ noSpec e = true ∧
    envNumbering e = some (modeOf r.numbered) ∧ envColumns e = r.columns ∧ envRows e = r.rows ∧ envDelims e = none := by
  have hr := List.all_eq_true.1 displays_known r h
  split at hr
  · rename_i e he
    simp only [Bool.and_eq_true, decide_eq_true_eq, beq_iff_eq, Option.isNone_iff_eq_none] at hr
    exact ⟨e, he, hr.1.1.1.1, hr.1.1.1.2, hr.1.1.2, hr.1.2, hr.2⟩
  · cases hr

/-- The tag of a line, as in the model -/
theorem line_tag (l : DisplayLine) (which : WhichRows) (isLast : Bool) (hi : which = .last → isLast = true) (c : Counters) :
    (rowTag (modeOf which) (lineEvents l) c.count).map (fun t => (t.text, tagText t)) = l.tag which isLast c.count ∧
    isAutomatic (modeOf which) (lineEvents l) = l.counted which isLast := by
  obtain ⟨cell, cells, mark, label, early⟩ := l
  cases mark with
  | automatic =>
    cases which with
    | every => exact ⟨rfl, rfl⟩
    | none => exact ⟨rfl, rfl⟩
    | last => cases hi rfl; exact ⟨rfl, rfl⟩
  | without name => cases which <;> exact ⟨rfl, rfl⟩
  | tagged starred text => cases which <;> cases starred <;> exact ⟨rfl, rfl⟩

/-- Labels, one after the other -/
def insertAll (m : StrMap Str) (ls : List (Str × Str)) : StrMap Str := ls.foldl (fun m l => m.insert l.1 l.2) m

/-- What the tags stand for -/
def labelsOf (l : DisplayLine) (tag : Option (Str × Str)) : List (Str × Str) :=
  (l.label.bind fun label => tag.map fun tag => (label, tag.1)).toList

theorem row_number (l : DisplayLine) (which : WhichRows) (isLast : Bool) (hi : which = .last → isLast = true) (c : Counters) :
    (rowNumber (modeOf which) c (lineEvents l)).1.map (fun i => (i.tag.text, tagText i.tag)) = l.tag which isLast c.count ∧
    (rowNumber (modeOf which) c (lineEvents l)).2 =
      ⟨if l.counted which isLast then c.count + 1 else c.count, insertAll c.labels (labelsOf l (l.tag which isLast c.count))⟩ := by
  obtain ⟨h1, h2⟩ := line_tag l which isLast hi c
  unfold rowNumber
  dsimp only
  rw [h2, ← h1]
  refine ⟨by rw [Option.map_map]; rfl, ?_⟩
  congr 1
  unfold labelsOf
  show (match rowTag _ _ _, l.label with | some t, some l => c.labels.insert l t.text | _, _ => c.labels) = _
  cases rowTag (modeOf which) (lineEvents l) c.count <;> cases l.label <;> rfl

/-- The tags of a display, as in the model -/
theorem numbers_form (row : DisplayRow) (l : DisplayLine) (rest : List DisplayLine) (h : linesProper row l rest = true) (c : Counters) :
    (numberRows (some (modeOf row.numbered)) c (lineEvents l) (rest.map lineEvents)).1.map
      (·.map fun i => (i.tag.text, tagText i.tag)) = tagsFrom row.numbered c.count l rest ∧
    (numberRows (some (modeOf row.numbered)) c (lineEvents l) (rest.map lineEvents)).2 =
      ⟨countAfter row.numbered c.count l rest, insertAll c.labels
        ((((l :: rest).map (·.label)).zip (tagsFrom row.numbered c.count l rest)).filterMap fun (label, tag) =>
          label.bind fun label => tag.map fun tag => (label, tag.1))⟩ := by
  induction rest generalizing l c with
  | nil =>
    obtain ⟨h1, h2⟩ := row_number l row.numbered true (fun _ => rfl) c
    rw [List.map_nil]
    unfold numberRows tagsFrom countAfter
    refine ⟨by rw [← h1]; rfl, ?_⟩
    dsimp only
    rw [h2]
    unfold labelsOf
    congr 2
  | cons m rest ih =>
    unfold linesProper at h
    simp only [Bool.and_eq_true] at h
    obtain ⟨⟨⟨hr, h⟩, hrest⟩, -⟩ := h
    by_cases hw : row.numbered = .last
    · unfold DisplayLine.proper at h
      simp only [Bool.and_eq_true, Bool.or_eq_true, decide_eq_true_eq, Option.isNone_iff_eq_none] at h
      obtain ⟨hm, hl⟩ := (h.2.resolve_left (by rintro (h | h); cases h; exact h hw))
      obtain ⟨i1, i2⟩ := ih m hrest c
      have he : lineEvents l = {} := by unfold lineEvents; rw [hm, hl]; rfl
      have hp : (lineEvents l).passOn (lineEvents m) = lineEvents m := by
        rw [he]
        unfold RowEvents.passOn
        cases hv : lineEvents m with
        | mk t n b => cases t <;> cases n <;> rfl
      have hcount : l.counted row.numbered false = false := by unfold DisplayLine.counted; rw [hw]; simp
      have htag : l.tag row.numbered false c.count = none := by unfold DisplayLine.tag; rw [hm]; dsimp only; rw [hcount]; rfl
      rw [List.map_cons]
      unfold numberRows tagsFrom countAfter
      rw [hcount, htag]
      rw [hw] at i1 i2 ⊢
      dsimp only [modeOf] at i1 i2 ⊢
      rw [hp]
      refine ⟨by rw [List.map_cons, i1]; rfl, ?_⟩
      rw [i2]
      congr 2
      rw [show (l :: m :: rest).map (·.label) = l.label :: (m :: rest).map (·.label) from rfl, List.zip_cons_cons, List.filterMap_cons, hl]
      rfl
    · obtain ⟨h1, h2⟩ := row_number l row.numbered false (fun e => absurd e hw) c
      obtain ⟨i1, i2⟩ := ih m hrest (rowNumber (modeOf row.numbered) c (lineEvents l)).2
      rw [h2] at i1 i2
      have hn : numberRows (some (modeOf row.numbered)) c (lineEvents l) ((m :: rest).map lineEvents) =
          ((rowNumber (modeOf row.numbered) c (lineEvents l)).1 ::
            (numberRows (some (modeOf row.numbered)) (rowNumber (modeOf row.numbered) c (lineEvents l)).2 (lineEvents m) (rest.map lineEvents)).1,
            (numberRows (some (modeOf row.numbered)) (rowNumber (modeOf row.numbered) c (lineEvents l)).2 (lineEvents m) (rest.map lineEvents)).2) := by
        rw [List.map_cons]
        conv => lhs; unfold numberRows
        cases hq : row.numbered with
        | every => rfl
        | none => rfl
        | last => exact absurd hq hw
      rw [hn, h2]
      unfold tagsFrom countAfter
      refine ⟨by rw [List.map_cons, h1, i1], ?_⟩
      rw [i2]
      congr 1
      rw [show (l :: m :: rest).map (·.label) = l.label :: (m :: rest).map (·.label) from rfl, List.zip_cons_cons, List.filterMap_cons]
      unfold labelsOf insertAll
      dsimp only
      cases l.label <;> cases l.tag row.numbered false c.count <;> rfl

/-! ### Displays -/

/-- A display which is right -/
structure DisplayGood (d : Display) (e : Env) (f : Form) : Prop where
  numbering : envNumbering e = some (modeOf d.row.numbered)
  fixed : ∀ l ∈ d.lexemes, l.fixed = true
  tokens : (Form.item (.env e e {} f) .nil .nil).tokens = tks d.lexemes
  ok : (Form.item (.env e e {} f) .nil .nil).ok false = true
  linked : ∀ M, (Form.item (.env e e {} f) .nil .nil).linked M
  tame : (Form.item (.env e e {} f) .nil .nil).tame false = true
  unbroken : (Form.item (.env e e {} f) .nil .nil).unbroken = true
  page : (Form.item (.env e e {} f) .nil .nil).page = true
  runs : ∀ l p nxt, d.lines.length < 65535 → l.count + d.lines.length < usizeMax →
    ∃ ns l', (Form.item (.env e e {} f) .nil .nil).denote l p nxt = .ok (ns, l')
  events : f.split.events = lineEvents d.line ∧ f.split.rows.map (·.events) = d.lines.map lineEvents
  shapes : ∀ labels, Shape.trees (shapesOf ((Form.item (.env e e {} f) .nil .nil).pieces labels)) = [d.tree] ∧
    ∀ s ∈ shapesOf ((Form.item (.env e e {} f) .nil .nil).pieces labels), preScripted s = false

theorem events_consistent (l : DisplayLine) : (lineEvents l).consistent = true := by
  obtain ⟨cell, cells, mark, label, early⟩ := l
  cases mark <;> rfl

theorem construct_any (e : Env) (h : noSpec e = true) (content : List Node) (last : Option RowLabelInfo) (rows : Option Nat) :
    ∃ n, e.constructNode content none last rows none = some n := by
  cases e <;> first | exact ⟨_, rfl⟩ | cases h

theorem display_form (d : Display) (h : d.proper = true) : ∃ e f, DisplayGood d e f := by
  unfold Display.proper at h
  rw [Bool.and_eq_true, decide_eq_true_eq] at h
  obtain ⟨e, h1, h2, h3, h4, h5, h6⟩ := display_known h.1
  obtain ⟨f, hf, hs⟩ := lines_form d.row d.line d.lines h.2
  have hx : (Lexeme.opens d.row.name).fixed = true ∧ (Lexeme.closes d.row.name).fixed = true := by
    have : (Env.fromStr d.row.name).isSome = true := by rw [h1]; rfl
    exact ⟨this, this⟩
  have hok : ({} : EnvArgs).ok e = true := by
    show (noSpec e && true) = true
    rw [h2]
    rfl
  have hsplit : (f.split.all.all fun r => r.events.consistent) = true := by
    rw [List.all_eq_true]
    intro r hr
    have hm : r.events ∈ (d.line :: d.lines).map lineEvents := by
      rw [List.map_cons, ← hf.events, ← hf.others]
      rcases List.mem_cons.1 hr with rfl | hr
      · exact List.mem_cons_self
      · exact List.mem_cons_of_mem _ (List.mem_map_of_mem hr)
    obtain ⟨l, -, hl⟩ := List.mem_map.1 hm
    rw [← hl]
    exact events_consistent l
  have hnone : d.row.rows = true ∨ d.lines = [] := by
    cases hd : d.lines with
    | nil => exact .inr rfl
    | cons m rest =>
      have := h.2
      rw [hd] at this
      unfold linesProper at this
      simp only [Bool.and_eq_true] at this
      exact .inl this.1.1.1
  have hcols : d.row.rows = false → d.row.columns = false := by
    have : (displayRows.all fun r => r.rows || !r.columns) = true := by decide
    have := List.all_eq_true.1 this _ h.1
    intro hr
    rw [hr] at this
    simpa using this
  refine ⟨e, f, h3, fixed_cons hx.1 (fixed_append hf.fixed (fixed_one hx.2)), ?_, ?_, fun M => ⟨hf.linked M, trivial, trivial⟩, ?_, ?_, ?_,
    fun l p nxt hn hc => ?_, ⟨hf.events, hf.others⟩, fun labels => ?_⟩
  · show (_ :: ([] ++ f.tokens ++ _)) ++ [] ++ [] = _
    unfold Display.lexemes
    rw [hf.tokens, tks_cons, tks_append, List.append_nil, List.append_nil, List.nil_append]
    show _ = (⟨.beginEnv ((Env.fromStr d.row.name).getD .matrix), false⟩ : Tk) ::
      (tks _ ++ [⟨.endEnv ((Env.fromStr d.row.name).getD .matrix), false⟩])
    rw [h1]
    rfl
  · have := hf.ok
    simp only [Form.ok, Base.ok, Scripts.ok, hok, this]
    rfl
  · simp only [Form.tame, Base.tame, Scripts.tame, hf.tame]
    rfl
  · show (((envRows e || f.tame false) && f.unbroken) && true && true) = true
    rw [hf.unbroken, h5]
    cases hr : d.row.rows with
    | true => rfl
    | false => rw [hf.single (hcols hr) hr]; rfl
  · show ((decide (e = e) && simpleEnv e f) && true) = true
    unfold simpleEnv Env.hasRows
    rw [hs, h5, hsplit]
    rcases hnone with hr | hr
    · rw [hr]; simp
    · have : f.split.rows = [] := by
        have := hf.others
        rw [hr] at this
        exact List.map_eq_nil_iff.1 this
      rw [this]
      simp
  · have hlen : (d.lines.map lineEvents).length = d.lines.length := List.length_map _
    obtain ⟨l', n, g1, g2, g3⟩ := hf.runs { l with style := envStyle e, env := envState e } .ending ⟨⟨_, by
        show (envNumbering e).map _ = _
        rw [h3]
        rfl, fun _ => rfl, fun r hr => by
        rw [hlen]
        dsimp only at hr
        split at hr
        · cases hr; omega
        · cases hr⟩, fun hc => by show envColumns e = true; rw [h4, hc], fun hc => by show envRows e = true; rw [h5, hc], by
        rw [hlen]; exact hc⟩
    obtain ⟨ns, hn⟩ := g1 .opening
    obtain ⟨r, hr, -⟩ := endRow_runs n true { l' with style := l.style, env := l.env } g3
    obtain ⟨x, hx⟩ := construct_any e h2 ns r.1 r.2.1.numRows
    have hb : (Base.env e e {} f).denote l p (lead [] nxt) = .ok ((.closing, x), r.2.2) := by
      unfold Base.denote
      show (Form.denote f _ _ _ >>= fun r' => endEnv e e none none r'.1 l r'.2) = _
      rw [hn]
      show endEnv e e none none ns l l' = _
      unfold endEnv
      rw [if_neg (fun h => h rfl)]
      dsimp only
      rw [g2]
      dsimp only
      rw [hr]
      show (match e.constructNode ns none r.1 r.2.1.numRows none with | some node => _ | none => _) = _
      rw [hx]
    refine ⟨[withScripts x {}], r.2.2, ?_⟩
    unfold Form.denote
    rw [show (Scripts.nil.tokens ++ Form.nil.tokens) = [] from rfl, hb]
    rfl
  · obtain ⟨cell, cs, rest, k1, k2, k3⟩ := hf.rows labels
    have he : envShape e {} (f.pieces labels) = numberedShape (f.pieces labels) := by
      unfold envShape
      rw [h3, h6]
      rfl
    have hp : (Form.item (.env e e {} f) .nil .nil).pieces labels = [.shape (numberedShape (f.pieces labels))] := by
      show [ShapePiece.shape ((envShape e {} (f.pieces labels)).withScripts (none, none))] = _
      rw [he]
      rfl
    rw [hp]
    show [(numberedShape (f.pieces labels)).tree] = _ ∧ ∀ s ∈ [numberedShape (f.pieces labels)], _
    refine ⟨?_, fun s hs => by rw [List.mem_singleton.1 hs]; rfl⟩
    rw [numbered_tree, k1]
    unfold Display.tree
    rw [List.map_cons, ← k2, ← k3]
    rfl

/-! ### Writing -/

theorem cells_print (cell : Tex) (cells : List Tex) (hc : (cell :: cells).all (·.proper false true) = true) :
    Solid true (cellLexemes cell cells) := by
  induction cells generalizing cell with
  | nil =>
    rw [List.all_cons, Bool.and_eq_true] at hc
    exact tex_print false true cell hc.1
  | cons g rest ih =>
    rw [List.all_cons, Bool.and_eq_true] at hc
    unfold cellLexemes
    exact solid_append (tex_print false true cell hc.1) (.cons char_amp (ih g hc.2))

theorem label_print {label : Option Str} (h : (label.all fun s => s.all isTagChar) = true) : Solid true (labelLexemes label) := by
  cases label with
  | none => exact .nil
  | some s => exact .note rfl rfl (by simpa using textIn_print h .nil)

theorem mark_print {m : LineMark} (h : m.proper = true) : Solid true m.lexemes := by
  cases m with
  | automatic => exact .nil
  | without name =>
    have hn : name ∈ [c!"nonumber", c!"notag"] := of_decide_eq_true h
    simp only [List.mem_cons, List.not_mem_nil, or_false] at hn
    rcases hn with rfl | rfl <;> exact .note rfl rfl .nil
  | tagged starred s => cases starred <;> exact .note rfl rfl (by simpa using textIn_print h .nil)

theorem line_print {row : DisplayRow} {isLast : Bool} (l : DisplayLine) (h : l.proper row isLast = true) : Solid true l.lexemes := by
  unfold DisplayLine.proper at h
  simp only [Bool.and_eq_true] at h
  obtain ⟨⟨⟨⟨⟨h1, -⟩, h3⟩, h4⟩, -⟩, -⟩ := h
  unfold DisplayLine.lexemes
  have hl := label_print h4
  cases l.early
  · exact solid_append .nil (solid_append (cells_print _ _ h1) (solid_append (mark_print h3) hl))
  · exact solid_append hl (solid_append (cells_print _ _ h1) (solid_append (mark_print h3) .nil))

theorem lines_print (row : DisplayRow) (l : DisplayLine) (rest : List DisplayLine) (h : linesProper row l rest = true) :
    Solid true (lineLexemes l rest) := by
  induction rest generalizing l with
  | nil => exact line_print l h
  | cons m rest ih =>
    unfold linesProper at h
    simp only [Bool.and_eq_true] at h
    unfold lineLexemes
    exact solid_append (line_print l h.1.1.2) (.cons command_row (ih m h.1.2))

theorem display_print (d : Display) (h : d.proper = true) : Solid true d.lexemes := by
  unfold Display.proper at h
  rw [Bool.and_eq_true, decide_eq_true_eq] at h
  have hn : isNote (.opens d.row.name) = true := List.any_eq_true.2 ⟨d.row, h.1, beq_iff_eq.2 rfl⟩
  have hc : printable (.closes d.row.name) = true := by
    have : (displayRows.all fun r => printable (.closes r.name)) = true := by decide
    exact List.all_eq_true.1 this _ h.1
  exact .note rfl hn (solid_append (lines_print _ _ _ h.2) (.cons hc .nil))

end Verif

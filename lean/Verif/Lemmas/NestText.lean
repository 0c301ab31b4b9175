import Verif.Lemmas.NestExpand
/-! Texts: the braces match, unless a command for text is the argument of another one without braces. -/
namespace Verif
open Model Spec Lexer' TokenQueue

/-- How many braces are open because of the commands which are being processed -/
def savedBraces : List (Nat × Option HtmlTextStyle × Option LengthSet) → Nat
  | [] => 0
  | [_] => 0
  | e :: es => e.1 + 1 + savedBraces es

/-- How many braces are open -/
def openBraces (t : TextState) : Nat :=
  if t.styles = [] then 0 else t.nesting + (if t.builder.isSome then 1 else 0) + savedBraces t.styles

/-- Before the first brace of a command, no braces are counted. -/
def TextOk (t : TextState) : Prop := t.styles ≠ [] → t.builder = none → t.nesting = 0

theorem flush_fields (t : TextState) : t.flush.builder = none ∧ t.flush.nesting = t.nesting ∧ t.flush.styles = t.styles := by
  unfold TextState.flush
  split <;> exact ⟨rfl, rfl, rfl⟩

/-- The braces of a state in which the text of a command has ended -/
theorem pop_braces {t : TextState} (hb : t.builder = none) (hn : t.nesting = 0) :
    TextOk t.pop ∧ openBraces t.pop = savedBraces t.styles ∧ (t.styles ≠ [] → t.pop.styles = [] ∨ t.pop.builder.isSome = true) := by
  unfold TextState.pop TextOk openBraces
  cases hs : t.styles with
  | nil =>
    refine ⟨?_, ?_, by simp⟩
    · simp [TextState.top, hs]
    · simp [savedBraces]
  | cons e es =>
    cases es with
    | nil => simp [savedBraces, TextState.top, hs]
    | cons e' es => simp [savedBraces, TextState.top, hs]

/-- The text of a command has ended, or some text has been collected. -/
structure TextGoes (t t' : TextState) : Prop where
  ok : TextOk t'
  braces : openBraces t' = openBraces t
  inside : t'.styles = [] ∨ t'.builder.isSome = true

theorem goes_pop {t t' : TextState} (hs : t.styles ≠ []) (h : TextOk t) (hb : t.builder = none)
    (h1 : t'.builder = none) (h2 : t'.nesting = t.nesting) (h3 : t'.styles = t.styles) : TextGoes t t'.pop := by
  obtain ⟨a1, a2, a3⟩ := pop_braces h1 (h2.trans (h hs hb))
  refine ⟨a1, ?_, a3 (by rw [h3]; exact hs)⟩
  rw [a2, h3]
  unfold openBraces
  rw [if_neg hs, h hs hb, hb]
  simp

theorem goes_on {t t' : TextState} (h1 : t'.builder.isSome = true) (h2 : t'.nesting = t.nesting) (h3 : t'.styles = t.styles)
    (h4 : t.builder.isSome = true) : TextGoes t t' := by
  refine ⟨fun _ h => (by rw [h] at h1; cases h1), ?_, .inr h1⟩
  unfold openBraces
  rw [h1, h2, h3, h4]

theorem goes_char {t : TextState} (hs : t.styles ≠ []) (h : TextOk t) (c) : TextGoes t (t.char c) := by
  unfold TextState.char
  cases hb : t.builder with
  | some b => exact goes_on rfl rfl rfl (by rw [hb]; rfl)
  | none => exact goes_pop hs h hb hb rfl rfl

theorem goes_string {t : TextState} (hs : t.styles ≠ []) (h : TextOk t) (c) : TextGoes t (t.string c) := by
  unfold TextState.string
  cases hb : t.builder with
  | some b => exact goes_on rfl rfl rfl (by rw [hb]; rfl)
  | none => exact goes_pop hs h hb hb rfl rfl

theorem goes_space {t : TextState} (hs : t.styles ≠ []) (h : TextOk t) (l) : TextGoes t (textSpace t l) := by
  unfold textSpace
  repeat' split
  all_goals first
    | exact goes_char hs h _
    | skip
  · rename_i hb
    rw [Option.isNone_iff_eq_none] at hb
    exact goes_pop hs h hb hb rfl rfl
  · rename_i hb
    have : t.builder.isSome = true := by
      cases hb' : t.builder with
      | none => rw [hb'] at hb; simp at hb
      | some b => rfl
    exact goes_on this rfl rfl this

theorem goes_size {t : TextState} (hs : t.styles ≠ []) (h : TextOk t) (x) : TextGoes t (t.setSize x) := by
  unfold TextState.setSize
  split
  · rename_i hb
    exact goes_on (by dsimp only; rw [hb]; rfl) rfl rfl (by rw [hb]; rfl)
  · rename_i hb
    obtain ⟨-, f2, f3⟩ := flush_fields t
    exact goes_on rfl (by exact f2) (by exact f3) (by rw [hb]; rfl)
  · rename_i hb
    exact goes_pop hs h hb hb rfl rfl

/-- Entering a command -/
theorem enter_braces {t : TextState} (hs : t.styles ≠ []) (hb : t.builder.isSome = true) (style voffset) :
    openBraces (t.flush.enter style voffset) = openBraces t := by
  obtain ⟨f1, f2, f3⟩ := flush_fields t
  unfold TextState.enter openBraces
  rw [if_neg (by simp), if_neg hs, hb]
  simp only [f1, f2, f3]
  cases hs' : t.styles with
  | nil => exact absurd hs' hs
  | cons e es => simp [savedBraces]

theorem enter_ok (t : TextState) (style voffset) : TextOk (t.enter style voffset) := fun _ _ => rfl

/-- A closing brace -/
theorem close_braces {t : TextState} (hs : t.styles ≠ []) {b} (hb : t.builder = some b) :
    TextOk (t.close b) ∧ openBraces (t.close b) + 1 = openBraces t ∧
      ((t.close b).styles = [] ∨ (t.close b).builder.isSome = true) := by
  obtain ⟨f1, f2, f3⟩ := flush_fields t
  unfold TextState.close
  cases hn : t.nesting with
  | zero =>
    obtain ⟨a1, a2, a3⟩ := pop_braces f1 (f2.trans hn)
    refine ⟨a1, ?_, a3 (by rw [f3]; exact hs)⟩
    show openBraces t.flush.pop + 1 = _
    rw [a2, f3]
    unfold openBraces
    rw [if_neg hs, hn, hb]
    simp; omega
  | succ n =>
    have key : ∀ had : Bool, ∀ x, x = (if had = true then { t.flush with
        nesting := n, sizes := discardDeadSizes t.sizes t.styles.length n, builder := some [] }
        else { t with nesting := n, builder := some b }) →
        TextOk x ∧ openBraces x + 1 = openBraces t ∧ (x.styles = [] ∨ x.builder.isSome = true) := by
      rintro had x rfl
      unfold openBraces
      cases had
      · refine ⟨fun _ h => (by cases h), ?_, .inr rfl⟩
        simp only [Bool.false_eq_true, if_false]
        rw [if_neg hs, if_neg hs, hn, hb]
        simp; omega
      · refine ⟨fun _ h => (by cases h), ?_, .inr rfl⟩
        simp only [if_true, f3]
        rw [if_neg hs, if_neg hs, hn, hb]
        simp; omega
    exact key _ _ rfl

/-- What one step does, according to its token -/
inductive TextDoes (t : TextState) (tok : Token) (t' : TextState) : Prop
  /-- a token which is part of the text -/
  | goes : idle tok = true → TextGoes t t' → TextDoes t tok t'
  | open_ : tok = .groupBegin → TextOk t' → openBraces t' = openBraces t + 1 → t'.builder.isSome = true → TextDoes t tok t'
  | close : tok = .groupEnd → TextOk t' → openBraces t' + 1 = openBraces t →
      (t'.styles = [] ∨ t'.builder.isSome = true) → TextDoes t tok t'
  /-- another command for text -/
  | enter : idle tok = true → isTextCmd tok = true → TextOk t' →
      (t.builder.isSome = true → openBraces t' = openBraces t) → TextDoes t tok t'

theorem text_step {mode tok} {t t' : TextState} (hs : t.styles ≠ []) (h : TextOk t)
    (hm : textStep mode tok t = .next t') : TextDoes t tok t' := by
  have hmath : idle tok = true → textStepMath tok t = .next t' → TextDoes t tok t' := by
    intro hq hm
    unfold textStepMath at hm
    split at hm <;> first
      | (cases hm; done)
      | (cases hm; exact .goes hq (goes_char hs h _))
      | (cases hm; exact .goes hq (goes_string hs h _))
      | (cases hm; exact .goes hq (goes_space hs h _))
  unfold textStep at hm
  split at hm
  · cases hm
  · split at hm
    · split at hm
      · split at hm
        · rename_i hb
          cases hm
          exact .goes rfl (goes_on hb rfl rfl hb)
        · cases hm
      · cases hm; exact .goes rfl (goes_char hs h _)
      · cases hm; exact .enter rfl rfl (enter_ok _ _ _) fun hb => enter_braces hs hb _ _
      · cases hm; exact .goes rfl (goes_size hs h _)
    · cases hm
  · cases hm; exact .goes rfl (goes_char hs h _)
  · cases hm; exact .goes rfl (goes_char hs h _)
  · cases hm; exact .goes rfl (goes_char hs h _)
  · cases hm; exact .goes rfl (goes_char hs h _)
  · cases hm; exact .goes rfl (goes_char hs h _)
  · cases hm; exact .goes rfl (goes_char hs h _)
  · cases hm; exact .goes rfl (goes_string hs h _)
  · split at hm
    · rename_i hb
      cases hm
      refine .open_ rfl (fun _ h => by cases h) ?_ rfl
      unfold openBraces
      rw [if_neg hs, if_neg hs, hb]
      simp; omega
    · rename_i hb
      cases hm
      refine .open_ rfl (fun _ h' => by rw [show t.builder = none from h'] at hb; cases hb) ?_ (by dsimp only; rw [hb]; rfl)
      unfold openBraces
      rw [if_neg hs, if_neg hs, hb]
      simp; omega
  · split at hm
    · rename_i b hb
      cases hm
      obtain ⟨a1, a2, a3⟩ := close_braces hs hb
      exact .close rfl a1 a2 a3
    · cases hm
  · cases hm; exact .goes rfl (goes_char hs h _)
  · cases hm; exact .enter rfl rfl (enter_ok _ _ _) fun hb => enter_braces hs hb _ _
  · cases hm
  · cases hm
  · cases hm
  · cases hm
  · split at hm
    · cases hm
    · revert hm hmath
      cases tok <;> intro hmath hm <;> first
        | exact hmath rfl hm
        | (cases hm; done)

theorem text_step_raise {mode tok} {t t' : TextState} (hm : textStep mode tok t = .raise t') :
    tok = .raiseBox ∧ t' = t.flush := by
  unfold textStep textStepMath at hm
  repeat' (split at hm)
  all_goals first
    | (cases hm; done)
    | (cases hm; exact ⟨rfl, rfl⟩)

/-! ### Words -/

/-- The word opens so many braces. -/
def Opens (n : Nat) (w : List Token) : Prop := ∀ st, nest st w = some (List.replicate n Opener.group ++ st)

theorem Opens.snoc {n w} (h : Opens n w) {v} (hv : ∀ t ∈ v, calm t = true) : Opens n (w ++ v) := by
  intro st
  rw [nest_append, h st]
  exact calm_nest hv _

theorem Opens.begin {n w} (h : Opens n w) : Opens (n + 1) (w ++ [.groupBegin]) := by
  intro st
  rw [nest_append, h st]
  rfl

theorem Opens.end {n w} (h : Opens (n + 1) w) : Opens n (w ++ [.groupEnd]) := by
  intro st
  rw [nest_append, h st]
  rfl

theorem Opens.closed {w} (h : Opens 0 w) (b) : Closed b w := fun st _ => h st

theorem Opens.append_closed {n w v} (h : Opens n w) (hv : ∀ b, Closed b v) : Opens n (w ++ v) := by
  intro st
  rw [nest_append, h st]
  exact hv _ _ rfl

/-- The word ends with a command for text, and everything which comes before its text. -/
def EndsWithHead (w : List Token) : Prop := ∃ pre hd, noWs w = pre ++ hd ∧ TextHead hd

theorem EndsWithHead.excludes {w : List Token} (h : EndsWithHead w) {ws v : List Token} {t}
    (hws : ∀ x ∈ ws, x.isWs = true) (ht : isTextCmd t = true ∨ t = .raiseBox) (htext : TextArgs (w ++ (ws ++ [t]) ++ v)) :
    False := by
  obtain ⟨pre, hd, h1, h2⟩ := h
  have htws : t.isWs = false := by
    rcases ht with ht | rfl
    · cases t <;> first | rfl | (cases ht; done)
    · rfl
  have h3 : (w ++ (ws ++ [t]) ++ v).filter (fun t => !t.isWs) = pre ++ (hd ++ t :: noWs v) := by
    show noWs _ = _
    rw [noWs_append, noWs_append, noWs_append, h1, noWs_ws hws]
    simp [noWs, htws]
  obtain ⟨h4, h5⟩ := htext pre hd t _ h3 h2
  rcases ht with ht | ht
  · rw [ht] at h4; cases h4
  · exact h5 ht

theorem head_cmd {w ws : List Token} {t} (ht : isTextCmd t = true) : EndsWithHead (w ++ (ws ++ [t])) := by
  have htws : t.isWs = false := by
    cases t <;> first | rfl | (cases ht; done)
  refine ⟨noWs w ++ noWs ws, [t], ?_, .cmd ht⟩
  rw [noWs_append, noWs_append]
  simp [noWs, htws]

theorem head_raise {w ws v : List Token} (hv : ArgWord v) : EndsWithHead (w ++ (ws ++ [.raiseBox]) ++ v) := by
  rcases hv with ⟨t, h1, h2⟩ | ⟨l, h1, h2⟩
  · refine ⟨noWs w ++ noWs ws, [.raiseBox, t], ?_, .raise ?_⟩
    · rw [noWs_append, noWs_append, noWs_append, h1]
      simp [noWs, Token.isWs]
    · intro h; rw [h] at h2; cases h2
  · refine ⟨noWs w ++ noWs ws, .raiseBox :: .groupBegin :: (l ++ [.groupEnd]), ?_, .raiseGroup ?_⟩
    · rw [noWs_append, noWs_append, noWs_append, h1]
      simp [noWs, Token.isWs]
    · intro t ht
      have := h2 t ht
      constructor <;> (intro h; rw [h] at this; cases this)

/-! ### The loop -/
variable {any : Bool}

/-- What is known when the loop is at its start -/
structure InText (cfg : ParserConfig) (st : CmdStores) (u0 u : Stream) (t : TextState) (w : List Token) : Prop where
  word : Unfolds cfg st u0 w st u
  ok : TextOk t
  head : t.styles = [] ∨ t.builder.isSome = true ∨ EndsWithHead w
  braces : TextArgs w → Opens (openBraces t) w

theorem parseRaise_word {cfg} {s s' : PState} {r} (hq : QInv s.q) (hg : AllFit s.q.stores (upcoming cfg s.q))
    (h : parseRaise cfg s = .ok r s') :
    QInv s'.q ∧ s'.q.stores = s.q.stores ∧ s'.env = s.env ∧
      ∃ w, Unfolds cfg s.q.stores (upcoming cfg s.q) w s.q.stores (upcoming cfg s'.q) ∧ ArgWord w := by
  obtain ⟨⟨x, span⟩, s1, h1, h2⟩ := bind_inv h
  have hs : s' = s1 := by
    dsimp only at h2
    cases hl : parseLengthSpecification x with
    | none => rw [hl] at h2; cases h2
    | some r =>
      rw [hl] at h2
      obtain ⟨value, u, unit, isMath⟩ := r
      cases isMath with
      | true => cases h2
      | false => cases h2; rfl
  subst hs
  exact parseStringLiteral_word hq hg h1

theorem ite_bind {σ α β : Type} {c : Prop} [Decidable c] {a b : St σ α} {f : α → St σ β} :
    (if c then a >>= f else b >>= f) = (if c then a else b) >>= f := by
  split <;> rfl

/-- One token of a text -/
theorem text_token {cfg mode} {s s' : PState} {t : TokSpan} (hq : QInv s.q)
    (hsingle : single t.tok = true)
    (h : (if mode = true then P.nextAny else P.next) cfg s = .ok t s') :
    QInv s'.q ∧ s'.q.stores = s.q.stores ∧ s'.env = s.env ∧ ∃ ws : List Token, (∀ x ∈ ws, x.isWs = true) ∧
      Unfolds cfg s.q.stores (upcoming cfg s.q) (ws ++ [t.tok]) s.q.stores (upcoming cfg s'.q) := by
  cases mode with
  | true =>
    obtain ⟨qt, a1, rfl, a2, a3, a4, a5⟩ := nextAny_ok hq h
    refine ⟨a3, a4, a5, [], by simp, ?_⟩
    rw [a2]
    exact unfolds_read true a1 hsingle
  | false =>
    obtain ⟨p, qt, a1, rfl, a2, a3, a4, a5⟩ := next_ok hq h
    obtain ⟨ws, b1, b2⟩ := unfolds_first (cfg := cfg) (st := s.q.stores) false a1 hsingle
    refine ⟨a3, a4, a5, ws, b1, ?_⟩
    rw [a2]
    exact b2

theorem text_loop {mode fuel} : ∀ {t : TextState} {cfg s u0 a s' w}, QInv s.q → AllFit s.q.stores u0 →
    InText cfg s.q.stores u0 (upcoming cfg s.q) t w → extractTextLoop mode fuel t cfg s = .ok a s' →
    Ended any cfg s u0 s' := by
  induction fuel with
  | zero => intro t cfg s u0 a s' w _ _ _ h; cases h
  | succ fuel ih =>
    intro t cfg s u0 a s' w hq hg hw h
    unfold extractTextLoop at h
    by_cases hs : t.styles = []
    · rw [if_pos (by rw [hs]; rfl)] at h
      cases h
      refine ⟨hq, rfl, w, hw.word, fun ht b _ => ?_⟩
      have := hw.braces ht
      unfold openBraces at this
      rw [if_pos hs] at this
      exact this.closed b
    · rw [if_neg (by cases hs' : t.styles with | nil => exact absurd hs' hs | cons => simp)] at h
      rw [ite_bind] at h
      obtain ⟨tok, s1, h1, h2⟩ := bind_inv h
      dsimp only at h2
      have hg' := hw.word.good hg
      -- what is left to show if the next state is fine
      have fin : ∀ {s2 t' v}, QInv s2.q → s2.q.stores = s.q.stores → s2.env = s.env →
          InText cfg s.q.stores u0 (upcoming cfg s2.q) t' v → extractTextLoop mode fuel t' cfg s2 = .ok a s' →
          Ended any cfg s u0 s' := by
        intro s2 t' v c1 c2 c3 c4 c5
        rw [← c2] at c4 hg
        obtain ⟨d1, d2, v', d3, d4⟩ := ih c1 hg c4 c5
        rw [c2] at d3
        rw [c3] at d2 d4
        exact ⟨d1, d2, v', d3, d4⟩
      cases ht : textStep mode tok.tok t with
      | next t' =>
        rw [ht] at h2
        have hd := text_step hs hw.ok ht
        have hsingle : single tok.tok = true := by
          cases hd with
          | goes h _ => exact idle_single h
          | open_ h => rw [h]; rfl
          | close h => rw [h]; rfl
          | enter h => exact idle_single h
        obtain ⟨b1, b2, b3, ws, b4, b5⟩ := text_token hq hsingle h1
        have hcalm : ∀ {x}, calm x = true → ∀ y ∈ ws ++ [x], calm y = true := by
          intro x hx y hy
          rcases List.mem_append.1 hy with hy | hy
          · exact ws_calm (b4 y hy)
          · cases List.mem_singleton.1 hy; exact hx
        refine fin b1 b2 b3 (v := w ++ (ws ++ [tok.tok])) ⟨hw.word.trans b5, ?_, ?_, ?_⟩ h2
        · cases hd with
          | goes _ h => exact h.ok
          | open_ _ h => exact h
          | close _ h => exact h
          | enter _ _ h => exact h
        · cases hd with
          | goes _ h =>
            rcases h.inside with h | h
            · exact .inl h
            · exact .inr (.inl h)
          | open_ _ _ _ h => exact .inr (.inl h)
          | close _ _ _ h =>
            rcases h with h | h
            · exact .inl h
            · exact .inr (.inl h)
          | enter _ h => exact .inr (.inr (head_cmd h))
        · intro htext
          have hbr := hw.braces htext.left
          cases hd with
          | goes h h' => rw [h'.braces]; exact hbr.snoc (hcalm (idle_calm h))
          | open_ h _ h' =>
            rw [h', h, ← List.append_assoc]
            exact (hbr.snoc fun y hy => ws_calm (b4 y hy)).begin
          | close h _ h' =>
            rw [← h'] at hbr
            rw [h, ← List.append_assoc]
            exact (hbr.snoc fun y hy => ws_calm (b4 y hy)).end
          | enter h h' _ h'' =>
            rcases hw.head with hh | hh | hh
            · exact absurd hh hs
            · rw [h'' hh]; exact hbr.snoc (hcalm (idle_calm h))
            · exact (hh.excludes b4 (.inl h') (v := []) (by rw [List.append_nil]; exact htext)).elim
      | fail k => rw [ht] at h2; cases h2
      | raise t' =>
        rw [ht] at h2
        obtain ⟨htok, rfl⟩ := text_step_raise ht
        obtain ⟨b1, b2, b3, ws, b4, b5⟩ := text_token hq (by rw [htok]; rfl) h1
        obtain ⟨new, s2, h3, h4⟩ := bind_inv h2
        have hg1 : AllFit s1.q.stores (upcoming cfg s1.q) := by rw [b2]; exact b5.good hg'
        obtain ⟨c1, c2, c3, v, c4, c5⟩ := parseRaise_word b1 hg1 h3
        rw [b2] at c4
        rw [htok] at b5
        refine fin c1 (c2.trans b2) (c3.trans b3) (v := w ++ (ws ++ [.raiseBox]) ++ v)
          ⟨(hw.word.trans b5).trans c4, enter_ok _ _ _, .inr (.inr (head_raise c5)), ?_⟩ h4
        intro htext
        rcases hw.head with hh | hh | hh
        · exact absurd hh hs
        · rw [enter_braces hs hh]
          refine Opens.append_closed ((hw.braces htext.left.left).snoc ?_) c5.closed
          intro y hy
          rcases List.mem_append.1 hy with hy | hy
          · exact ws_calm (b4 y hy)
          · cases List.mem_singleton.1 hy; rfl
        · exact (hh.excludes b4 (.inr rfl) htext).elim

/-- The text of a command -/
theorem nest_text {t : Token} (ht : isTextCmd t = true) (style voffset mode) :
    Judg any (After t) (extractText style voffset mode) := by
  rintro cfg s u0 a s' hq hg ⟨p, qt, h1, h2, h3⟩ h
  obtain ⟨fuel, s1, h4, h5⟩ := bind_inv h
  cases h4
  have hquiet : idle t = true := by cases t <;> first | rfl | (cases ht; done)
  obtain ⟨ws, h6, h7⟩ := unfolds_first (cfg := cfg) (st := s.q.stores) false h1
    (by rw [asRead_tok_false, h2]; exact idle_single hquiet)
  rw [asRead_tok_false, h2, ← h3] at h7
  refine text_loop (w := ws ++ [t]) hq hg ⟨h7, fun _ _ => rfl, .inr (.inr (head_cmd (w := []) ht)), fun _ st => ?_⟩ h5
  refine (calm_nest (fun y hy => ?_) st).trans rfl
  rcases List.mem_append.1 hy with hy | hy
  · exact ws_calm (h6 y hy)
  · cases List.mem_singleton.1 hy; exact idle_calm hquiet

/-- The same for `\raisebox` -/
theorem nest_raise {β : Type} {style} {f : LengthSet → P (List TextSnippet)} {g : List TextSnippet → P β}
    (hf : ∀ l, f l = extractText style (some l) true) (hg' : ∀ l, Judg any From (g l)) :
    Judg any (After .raiseBox) (parseRaise >>= fun l => f l >>= g) := by
  rintro cfg s u0 a s' hq hg ⟨p, qt, h1, h2, h3⟩ h
  obtain ⟨l, s1, h4, h5⟩ := bind_inv h
  obtain ⟨x, s2, h5, h5'⟩ := bind_inv h5
  rw [hf] at h5
  obtain ⟨fuel, s1', h6, h7⟩ := bind_inv h5
  cases h6
  obtain ⟨ws, h6, h8⟩ := unfolds_first (cfg := cfg) (st := s.q.stores) false h1 (by rw [asRead_tok_false, h2]; rfl)
  rw [asRead_tok_false, h2, ← h3] at h8
  obtain ⟨c1, c2, c3, v, c4, c5⟩ := parseRaise_word hq (h8.good hg) h4
  have e : Ended any cfg s1 u0 s2 := by
    refine text_loop (w := ws ++ [.raiseBox] ++ v) c1 (by rw [c2]; exact hg) ⟨by rw [c2]; exact h8.trans c4, fun _ _ => rfl,
      .inr (.inr (head_raise (w := []) c5)), fun _ => ?_⟩ h7
    refine Opens.append_closed (n := 0) (fun st => (calm_nest (fun y hy => ?_) st).trans rfl) c5.closed
    rcases List.mem_append.1 hy with hy | hy
    · exact ws_calm (h6 y hy)
    · cases List.mem_singleton.1 hy; rfl
  obtain ⟨d1, d2, w, d3, d4⟩ := e
  rw [c2] at d3
  rw [c3] at d2 d4
  obtain ⟨e1, e2, w', e3, e4⟩ := hg' x cfg s2 _ a s' d1 (d3.good hg) rfl h5'
  rw [d2] at e2 e4
  exact ⟨e1, e2, w ++ w', d3.trans e3, fun ht b hb => (d4 ht.left b hb).append (e4 ht.right b hb)⟩

end Verif

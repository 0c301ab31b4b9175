import Verif.Lemmas.NestLeaves
import Verif.Lemmas.Groups
/-! What is read for arguments which are not parsed as formulas. -/
namespace Verif
open Model Spec Lexer' TokenQueue

/-! ### Words without whitespace -/

/-- The word without its whitespace -/
def noWs (w : List Token) : List Token := w.filter fun t => !t.isWs

theorem noWs_append (v w) : noWs (v ++ w) = noWs v ++ noWs w := List.filter_append ..

theorem noWs_ws {w : List Token} (h : ∀ x ∈ w, x.isWs = true) : noWs w = [] := by
  unfold noWs; rw [List.filter_eq_nil_iff]; intro x hx; rw [h x hx]; simp

theorem nest_noWs (st) (w : List Token) : nest st w = nest st (noWs w) := by
  induction w generalizing st with
  | nil => rfl
  | cons t w ih =>
    cases ht : t.isWs with
    | true =>
      rw [nest, calm_step (ws_calm ht)]
      rw [show noWs (t :: w) = noWs w by simp [noWs, ht]]
      exact ih st
    | false =>
      rw [show noWs (t :: w) = t :: noWs w by simp [noWs, ht], nest, nest]
      cases nestStep st t with
      | none => rfl
      | some st' => exact ih st'

theorem closed_noWs {b w} : Closed b w ↔ Closed b (noWs w) := by
  unfold Closed
  constructor <;> intro h st hst
  · rw [← nest_noWs]; exact h st hst
  · rw [nest_noWs]; exact h st hst

theorem closed_group {b l} (h : Closed b l) : Closed b (.groupBegin :: (l ++ [.groupEnd])) := by
  intro st hst
  rw [nest]
  show nest (.group :: st) (l ++ [.groupEnd]) = _
  rw [nest_append, h _ (by exact hst)]
  rfl

/-- The word of an argument of which only the tokens matter -/
def ArgWord (w : List Token) : Prop :=
  (∃ t, noWs w = [t] ∧ idle t = true) ∨
  (∃ l, noWs w = .groupBegin :: (l ++ [.groupEnd]) ∧ ∀ t ∈ l, idle t = true)

theorem idle_calm {t : Token} (h : idle t = true) : calm t = true := (Judg.idle_iff.1 h).2
theorem idle_single {t : Token} (h : idle t = true) : single t = true := (Judg.idle_iff.1 h).1
theorem ws_quiet {t : Token} (h : t.isWs = true) : idle t = true := Judg.idle_iff.2 ⟨ws_single h, ws_calm h⟩

theorem ArgWord.closed {w} (h : ArgWord w) (b) : Closed b w := by
  rw [closed_noWs]
  rcases h with ⟨t, h, ht⟩ | ⟨l, h, hl⟩
  · rw [h]; exact .calm fun x hx => by cases List.mem_singleton.1 hx; exact idle_calm ht
  · rw [h]; exact closed_group (.calm fun x hx => idle_calm (hl x hx))

/-! ### Arguments -/

/-- The tokens of an argument -/
def _root_.Verif.Model.MacroArgument.toks : MacroArgument → List TokSpan
  | .token t => [t]
  | .group l _ => l

theorem asRead_tok_false (t : QueuedTok) : (asRead false t).tok = t.tok.unwrapMath := rfl
theorem asRead_tok_true (t : QueuedTok) : (asRead true t).tok = t.tok := rfl

theorem allAsRead_mem {keep} {l : List QueuedTok} {t} (ht : t ∈ l) (hw : t.tok.isWs = false) :
    asRead keep t ∈ allAsRead keep l := by
  unfold asRead allAsRead
  cases keep with
  | true => exact ht
  | false => exact List.mem_map_of_mem (List.mem_filter.2 ⟨ht, by rw [hw]; rfl⟩)

theorem drop_drop (u : Stream) (m n : Nat) : (u.drop m).drop n = u.drop (m + n) := by
  funext i; unfold Stream.drop; rw [Nat.add_assoc]

/-- What is read for a group up to its end -/
theorem recordGroup_word {cfg keep} {q q' : TokenQueue} {toks stop} (hq : QInv q) (hg : AllFit q.stores (upcoming cfg q))
    (h : recordGroup keep cfg q = .ok (toks, stop) q')
    (hc : ∀ t ∈ toks, fit t.tok = true → idle t.tok = true) :
    QInv q' ∧ q'.stores = q.stores ∧ ∃ w, Unfolds cfg q.stores (upcoming cfg q) (w ++ [.groupEnd]) q.stores (upcoming cfg q') ∧
      ∀ t ∈ w, idle t = true := by
  have h : recordGroupLoop keep q.loopFuel 0 [] cfg q = .ok (toks, stop) q' := h
  rcases recordGroupLoop_spec cfg keep q.loopFuel 0 [] q hq (by have := cnt_loopFuel q; omega) with
    ⟨toks', stop', q2, h1, h2, h3, -, h4⟩ | ⟨e, q2, h1, -⟩
  · rw [h1] at h
    cases h
    refine ⟨h2, h3, ?_⟩
    generalize hr : (Except.ok (toks, stop, upcoming cfg q') : Except LatexError _) = r at h4
    cases h4 with
    | close l close a1 a2 a3 a4 a5 =>
      simp only [Except.ok.injEq, Prod.mk.injEq] at hr
      obtain ⟨hr1, -, hr3⟩ := hr
      rw [hr3]
      have hl : ∀ t ∈ l, idle (asRead keep t).tok = true := by
        intro t ht
        cases hw : t.tok.isWs with
        | true => rw [asRead_ws hw]; exact ws_quiet hw
        | false =>
          refine hc _ ?_ (asRead_fit (startsWith_fit hg a1 t ht))
          rw [hr1]; exact allAsRead_mem ht hw
      refine ⟨l.map fun t => (asRead keep t).tok, ?_, ?_⟩
      · have b1 := unfolds_list (cfg := cfg) (st := q.stores) keep a1 fun t ht => idle_single (hl t ht)
        have b2 := unfolds_read (cfg := cfg) (st := q.stores) (u := (upcoming cfg q).drop l.length) (t := close) keep
          (by unfold Stream.drop; exact a2) (by rw [a3]; rfl)
        rw [a3, drop_drop] at b2
        exact b1.trans b2
      · intro t ht
        obtain ⟨x, hx, rfl⟩ := List.mem_map.1 ht
        exact hl x hx
    | eoi => cases hr
    | lex => cases hr
    | unknown => cases hr
  · rw [h1] at h; cases h

/-- What is read for an argument -/
theorem readArgument_word {cfg keep} {q q' : TokenQueue} {arg} (hq : QInv q) (hg : AllFit q.stores (upcoming cfg q))
    (h : readArgument keep cfg q = .ok arg q') (hc : ∀ t ∈ arg.toks, fit t.tok = true → idle t.tok = true) :
    QInv q' ∧ q'.stores = q.stores ∧ ∃ w, Unfolds cfg q.stores (upcoming cfg q) w q.stores (upcoming cfg q') ∧ ArgWord w := by
  obtain ⟨q0, q1, h0, h⟩ := bind_inv h
  cases h0
  obtain ⟨t, q1, h1, h⟩ := bind_inv h
  obtain ⟨t', q1', h1', h1''⟩ := bind_inv h1
  cases h1''
  obtain ⟨p, qt, a1, rfl, a2, a3, a4⟩ := nextKeeping_ok hq h1'
  obtain ⟨p', qt', b1, b2⟩ := peek_first cfg hq
  obtain ⟨rfl, rfl⟩ := a1.unique b1
  have hfirst : (if keep = true then q.peek else qt.unwrapMath.ts) = (asRead keep qt).ts := by
    rw [b2]; cases keep <;> rfl
  simp only [hfirst] at h
  have hfit := hg.stream _ _ a1.1
  split at h
  · rename_i hb
    have hb' : (asRead keep qt).tok = .groupBegin := by
      revert hb; show (asRead keep qt).tok.isGroupBegin = true → _
      cases (asRead keep qt).tok <;> intro hb <;> first | rfl | cases hb
    obtain ⟨⟨toks, stop⟩, q2, h2, h3⟩ := bind_inv h
    cases h3
    have hg1 : AllFit q1.stores (upcoming cfg q1) := by rw [a2, a4]; exact hg.drop _
    obtain ⟨c1, c2, w, c3, c4⟩ := recordGroup_word a3 hg1 h2 fun x hx => hc x.ts (List.mem_map_of_mem hx)
    obtain ⟨ws, d1, d2⟩ := unfolds_first (cfg := cfg) (st := q.stores) keep a1 (by rw [hb']; rfl)
    rw [a4] at c3
    rw [← a2] at d2
    refine ⟨c1, c2.trans a4, _, d2.trans c3, .inr ⟨noWs w, ?_, fun t ht => c4 t ((List.mem_filter.1 ht).1)⟩⟩
    rw [hb', noWs_append, noWs_append, noWs_append, noWs_ws d1]; rfl
  · cases h
    have hqt := hc (asRead keep qt).ts (List.mem_singleton.2 rfl) (asRead_fit hfit)
    obtain ⟨ws, d1, d2⟩ := unfolds_first (cfg := cfg) (st := q.stores) keep a1 (idle_single hqt)
    rw [← a2] at d2
    refine ⟨a3, a4, _, d2, .inl ⟨(asRead keep qt).tok, ?_, hqt⟩⟩
    rw [noWs_append, noWs_ws d1]
    have : (asRead keep qt).tok.isWs = false := by
      cases keep with
      | true => exact a1.2.1
      | false =>
        exact unwrap_not_ws hfit a1.2.1
    simp [noWs, this]

theorem literal_quiet {toks : List TokSpan} {s} (h : literalText toks = .ok s) : ∀ t ∈ toks, idle t.tok = true := by
  induction toks generalizing s with
  | nil => simp
  | cons t ts ih =>
    unfold literalText at h
    split at h
    · cases h
    · rename_i c hc
      split at h
      · rename_i s' hs
        intro x hx
        rcases List.mem_cons.1 hx with rfl | hx
        · unfold recoverLimitedAscii at hc
          split at hc <;> first | (cases hc; done) | (rw [‹TokSpan.tok _ = _›]; rfl)
        · exact ih hs x hx
      · cases h

theorem ofExcept_ok {σ α : Type} {r : Except LatexError α} {cfg} {s : σ} {a s'} (h : (St.ofExcept r : St σ α) cfg s = .ok a s') :
    r = .ok a ∧ s' = s := by
  cases r with
  | ok b => cases h; exact ⟨rfl, rfl⟩
  | error e => cases h

/-- What is read for a string -/
theorem parseStringLiteral_word {cfg} {s s' : PState} {r} (hq : QInv s.q) (hg : AllFit s.q.stores (upcoming cfg s.q))
    (h : parseStringLiteral cfg s = .ok r s') :
    QInv s'.q ∧ s'.q.stores = s.q.stores ∧ s'.env = s.env ∧
      ∃ w, Unfolds cfg s.q.stores (upcoming cfg s.q) w s.q.stores (upcoming cfg s'.q) ∧ ArgWord w := by
  obtain ⟨arg, s1, h1, h2⟩ := bind_inv h
  obtain ⟨q1, h1', rfl⟩ := liftQ_ok h1
  have key : s' = { s with q := q1 } ∧ ∀ t ∈ arg.toks, idle t.tok = true := by
    cases arg with
    | group toks span =>
      obtain ⟨x, s2, h3, h4⟩ := bind_inv h2
      cases h4
      obtain ⟨h3', rfl⟩ := ofExcept_ok h3
      exact ⟨rfl, literal_quiet h3'⟩
    | token t =>
      have key2 : (St.ofExcept (literalText [t]) >>= fun s => pure (s, t.span) : P _) cfg { s with q := q1 } = .ok r s' →
          s' = { s with q := q1 } ∧ ∀ x ∈ [t], idle x.tok = true := by
        intro h2
        obtain ⟨x, s2, h3, h4⟩ := bind_inv h2
        cases h4
        obtain ⟨h3', rfl⟩ := ofExcept_ok h3
        exact ⟨rfl, literal_quiet h3'⟩
      cases ht : t.tok <;> dsimp only at h2 <;> rw [ht] at h2 <;> first
        | exact key2 h2
        | (cases h2
           refine ⟨rfl, fun x hx => ?_⟩
           cases List.mem_singleton.1 hx
           rw [ht]; rfl)
  obtain ⟨rfl, hc⟩ := key
  obtain ⟨a1, a2, a3⟩ := readArgument_word hq hg h1' fun t ht _ => hc t ht
  exact ⟨a1, a2, rfl, a3⟩

variable {any : Bool}

theorem nest_string : Judg any From parseStringLiteral := by
  rintro cfg s u0 r s' hq hg rfl h
  obtain ⟨a1, a2, a3, w, a4, a5⟩ := parseStringLiteral_word hq hg h
  exact ⟨a1, by rw [a3], w, by rw [a2]; exact a4, fun _ b _ => a5.closed b⟩
macro_rules | `(tactic| nest_step) => `(tactic| exact nest_string)

theorem Judg.readArg_bind {β : Type} {keep} {f : MacroArgument → P β}
    (hc : ∀ arg cfg s b s', f arg cfg s = .ok b s' → ∀ t ∈ arg.toks, idle t.tok = true)
    (hf : ∀ arg, Judg any From (f arg)) : Judg any From (liftQ (readArgument keep) >>= f) := by
  rintro cfg s u0 b s' hq hg rfl h
  obtain ⟨arg, s1, h1, h2⟩ := bind_inv h
  obtain ⟨q1, h1', rfl⟩ := liftQ_ok h1
  obtain ⟨a1, a2, w, a3, a4⟩ := readArgument_word hq hg h1' fun t ht _ => hc _ _ _ _ _ h2 t ht
  have := (hf arg).later (s := { s with q := q1 }) (u0 := upcoming cfg s.q) (w := w) a1 (by rw [a2]; exact hg)
    (by rw [a2]; exact a3) a4.closed h2
  obtain ⟨b1, b2, w', b3, b4⟩ := this
  exact ⟨b1, b2, w', by rw [← a2]; exact b3, b4⟩

theorem intoOneOrNone_mem {arg : MacroArgument} {r} (h : arg.intoOneOrNone = .ok r) : ∀ t ∈ arg.toks, r = some t := by
  unfold MacroArgument.intoOneOrNone at h
  split at h <;> cases h <;> simp [MacroArgument.toks]

theorem intoOne_mem {arg : MacroArgument} {r} (h : arg.intoOne = .ok r) : ∀ t ∈ arg.toks, r = t := by
  unfold MacroArgument.intoOne at h
  split at h <;> cases h <;> simp [MacroArgument.toks]

theorem extractDelimiter_ok {t : TokSpan} {loc cfg s d s'} (h : extractDelimiter t loc cfg s = .ok d s') :
    t.tok.delimiter = some d ∧ s' = s := by
  unfold extractDelimiter at h
  cases hd : t.tok.delimiter with
  | some d' => rw [hd] at h; cases h; exact ⟨rfl, rfl⟩
  | none => rw [hd] at h; cases h

theorem nest_genfracDelimiter : Judg any From genfracDelimiter := by
  refine Judg.readArg_bind ?_ ?_
  · intro arg cfg s b s' h t ht
    obtain ⟨r, s1, h1, h2⟩ := bind_inv h
    obtain ⟨h1', rfl⟩ := ofExcept_ok h1
    cases intoOneOrNone_mem h1' t ht
    obtain ⟨d, s2, h3, h4⟩ := bind_inv h2
    exact idle_delimiter (extractDelimiter_ok h3).1
  · intro arg; nested
macro_rules | `(tactic| nest_step) => `(tactic| exact nest_genfracDelimiter)

theorem nest_genfracStyle : Judg any From genfracStyle := by
  refine Judg.readArg_bind ?_ ?_
  · intro arg cfg s b s' h t ht
    obtain ⟨r, s1, h1, h2⟩ := bind_inv h
    obtain ⟨h1', rfl⟩ := ofExcept_ok h1
    cases intoOneOrNone_mem h1' t ht
    cases ht : t.tok <;> dsimp only at h2 <;> rw [ht] at h2 <;> first | rfl | cases h2
  · intro arg; nested
macro_rules | `(tactic| nest_step) => `(tactic| exact nest_genfracStyle)

theorem nest_genfracLength : Judg any From genfracLength := by unfold genfracLength; nested
macro_rules | `(tactic| nest_step) => `(tactic| exact nest_genfracLength)

theorem nest_kernSign (n) : Judg any From (kernSign n) := by unfold kernSign; nested
macro_rules | `(tactic| nest_step) => `(tactic| exact nest_kernSign _)

theorem nest_kernLoop (fuel a b c d) : Judg any From (kernLoop fuel a b c d) := by
  induction fuel generalizing a b c d with
  | zero => unfold kernLoop; nested
  | succ fuel ih => unfold kernLoop; cases a <;> (simp only [if_true, if_false, Bool.false_eq_true]; nested <;> exact ih _ _ _ _)
macro_rules | `(tactic| nest_step) => `(tactic| exact nest_kernLoop _ _ _ _ _)

theorem nest_kernUnit (a b c d e f) : Judg any From (kernUnit a b c d e f) := by unfold kernUnit; nested
macro_rules | `(tactic| nest_step) => `(tactic| exact nest_kernUnit _ _ _ _ _ _)

theorem nest_kern (a b) : Judg any From (parseKernOrSkip a b) := by unfold parseKernOrSkip; nested
macro_rules | `(tactic| nest_step) => `(tactic| exact nest_kern _ _)

theorem nest_setTag (a b) : Judg any From (setTag a b) := by unfold setTag; nested
macro_rules | `(tactic| nest_step) => `(tactic| exact nest_setTag _ _)

theorem nest_setLabel (a) : Judg any From (setLabel a) := by unfold setLabel; nested
macro_rules | `(tactic| nest_step) => `(tactic| exact nest_setLabel _)

theorem nest_hline (a) : Judg any From (parseHline a) := by unfold parseHline; nested
macro_rules | `(tactic| nest_step) => `(tactic| exact nest_hline _)

theorem nest_newLine (a) : Judg any From (parseNewLine a) := by unfold parseNewLine; nested
macro_rules | `(tactic| nest_step) => `(tactic| exact nest_newLine _)

theorem nest_customSpace (a) : Judg any From (parseCustomSpace a) := by unfold parseCustomSpace; nested
macro_rules | `(tactic| nest_step) => `(tactic| exact nest_customSpace _)

theorem nest_big (a b c d) : Judg any From (parseBig a b c d) := by unfold parseBig; nested
macro_rules | `(tactic| nest_step) => `(tactic| exact nest_big _ _ _ _)

theorem nest_middle : Judg any From parseMiddle := by unfold parseMiddle; nested
macro_rules | `(tactic| nest_step) => `(tactic| exact nest_middle)

theorem nest_fence (a) : Judg any From (parseFenceDelimiter a) := by unfold parseFenceDelimiter; nested
macro_rules | `(tactic| nest_step) => `(tactic| exact nest_fence _)

theorem nest_arraySpec (a) : Judg any From (parseArraySpec a) := by unfold parseArraySpec; nested
macro_rules | `(tactic| nest_step) => `(tactic| exact nest_arraySpec _)

theorem nest_digit (a b) : Judg any From (parseDigit a b) := by unfold parseDigit; nested
macro_rules | `(tactic| nest_step) => `(tactic| exact nest_digit _ _)

/-! ### Colours -/

theorem bind_intro {σ α β : Type} {m : St σ α} {f : α → St σ β} {cfg s a s1 b s'} (h : m cfg s = .ok a s1)
    (h' : f a cfg s1 = .ok b s') : (m >>= f) cfg s = .ok b s' := by
  show St.bind _ _ _ _ = _
  unfold St.bind
  rw [h]; exact h'

theorem attempt_ok {σ α : Type} {m : St σ α} {cfg s r s'} (h : St.attempt m cfg s = .ok r s') :
    (∃ a, r = .ok a ∧ m cfg s = .ok a s') ∨ ∃ e, r = .error e := by
  unfold St.attempt at h
  cases hm : m cfg s with
  | ok a s1 => rw [hm] at h; cases h; exact .inl ⟨_, rfl, rfl⟩
  | err e s1 => rw [hm] at h; cases h; exact .inr ⟨_, rfl⟩
  | panic => rw [hm] at h; cases h
  | fuel => rw [hm] at h; cases h

/-- Only successful attempts matter. -/
theorem Judg.attempt_bind {α β : Type} {I} {m : P α} {f : Except LatexError α → P β}
    (hm : Judg any I (m >>= fun a => f (.ok a))) (he : ∀ e, Judg any I (f (.error e)) ∧ ∀ cfg s b s', f (.error e) cfg s ≠ .ok b s') :
    Judg any I (St.attempt m >>= f) := by
  intro cfg s u0 b s' hq hg hI h
  obtain ⟨r, s1, h1, h2⟩ := bind_inv h
  rcases attempt_ok h1 with ⟨a, rfl, h3⟩ | ⟨e, rfl⟩
  · refine hm cfg s u0 b s' hq hg hI ?_
    show St.bind _ _ _ _ = _
    unfold St.bind
    rw [h3]; exact h2
  · exact absurd h2 ((he e).2 _ _ _ _)

/-- The loop which reads the name of a colour model, if it ends well -/
theorem nest_colorType {β : Type} {f : Bool × Str → P β} (hf : ∀ acc, Judg any From (f (true, acc)))
    (he : ∀ acc cfg s b s', f (false, acc) cfg s ≠ .ok b s') (fuel acc) :
    Judg any From (colorTypeLoop fuel acc >>= f) := by
  induction fuel generalizing acc with
  | zero => intro cfg s u0 b s' hq hg hI h; cases h
  | succ fuel ih =>
    intro cfg s u0 b s' hq hg hI h
    obtain ⟨⟨flag, acc'⟩, s1, h1, h2⟩ := bind_inv h
    cases flag with
    | false => exact absurd h2 (he _ _ _ _ _)
    | true =>
      obtain ⟨r, s2, h3, h4⟩ := bind_inv h1
      rcases attempt_ok h3 with ⟨t, rfl, h5⟩ | ⟨e, rfl⟩
      · have key : ∀ {m : P β}, Judg any From m → idle t.tok = true → m cfg s2 = .ok b s' → Ended any cfg s u0 s' := by
          intro m hm ht h6
          have : Judg any From (P.next >>= fun t => if idle t.tok then m else St.throw ((⟨0, 0⟩ : Span).err .internal)) := by
            refine Judg.next_bind fun t => ?_
            split
            · exact Judg.after (fun _ => ‹_›) hm
            · exact Judg.throw _
          refine this cfg s u0 b s' hq hg hI ?_
          show St.bind _ _ _ _ = _
          unfold St.bind
          rw [h5]
          dsimp only
          rw [if_pos ht]
          exact h6
        cases ht : t.tok <;> dsimp only at h4 <;> rw [ht] at h4 <;> first
          | (cases h4; done)
          | (cases h4; exact key (hf _) (by rw [ht]; rfl) h2)
          | exact key (ih _) (by rw [ht]; rfl) (bind_intro h4 h2)
      · cases h4

theorem nest_color (sp) : Judg any From (parseColor sp) := by
  unfold parseColor
  refine Judg.peek_bind fun t => ?_
  split
  · refine Judg.next_next_bind ?_ fun _ => ?_
    · quietly
    · refine Judg.still_bind Still.loopFuel fun n => ?_
      refine nest_colorType ?_ ?_ _ _
      · intro acc
        refine Judg.attempt_bind ?_ ?_
        · nested
        · intro e; exact ⟨Judg.fail _ _, fun _ _ _ _ h => by cases h⟩
      · intro acc cfg s b s' h; cases h
  · nested
macro_rules | `(tactic| nest_step) => `(tactic| exact nest_color _)

end Verif

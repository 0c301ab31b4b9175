import Verif.Lemmas.DoesTokens
import Verif.Lemmas.SuperChar
/-! The parser on text in braces. -/
namespace Verif
open Model Spec Lexer' TokenQueue

variable {cfg : ParserConfig} {k : Ctx} {α β : Type} {m : Nat → P α} {f : Nat → α → P β}
  {ts ts' ts'' fol : List Tk} {l l' l'' : Loc} {a : α} {t : Tk} {c : Ctx}

/-- The next token, which may be whitespace -/
theorem Does.nextRaw_bind {r : Except LatexErrKind (β × Loc)} {f : Nat → TokSpan → P β} (ht : t.tight = true)
    (hn : Named t.tok = true) (h : ∀ sp, Does cfg k (fun n => f n ⟨t.tok, sp⟩) ts l ts' r) :
    Does cfg k (fun n => P.nextAny >>= f n) (t :: ts) l ts' r := by
  have key : ∀ s, Is cfg s (t :: ts) (k.at l) → ∃ sp q', P.nextAny cfg s = .ok ⟨t.tok, sp⟩ { s with q := q' } ∧
      Is cfg { s with q := q' } ts (k.at l) := by
    intro s hs
    obtain ⟨qt, q', h1, h2, h3⟩ := hs.nextAnyKeeping ht hn
    refine ⟨qt.span, q', ?_, h3⟩
    unfold P.nextAny liftQ St.zoom
    have h4 : TokenQueue.nextAny cfg s.q = .ok qt.ts q' := by
      unfold TokenQueue.nextAny
      show St.bind _ _ _ _ = _
      unfold St.bind
      rw [h1]; rfl
    rw [h4, ← h2]; rfl
  cases r with
  | error e =>
    intro s hs
    obtain ⟨sp, q', h1, h2⟩ := key s hs
    obtain ⟨n0, e, s', h3, h4⟩ := h sp _ h2
    refine ⟨n0, e, s', fun n hn => ?_, h4⟩
    show St.bind P.nextAny (f n) cfg s = _
    unfold St.bind
    rw [h1]; exact h3 n hn
  | ok p =>
    intro s hs
    obtain ⟨sp, q', h1, h2⟩ := key s hs
    obtain ⟨n0, s', h3, h4⟩ := h sp _ h2
    refine ⟨n0, s', fun n hn => ?_, h4⟩
    show St.bind P.nextAny (f n) cfg s = _
    unfold St.bind
    rw [h1]; exact h3 n hn

theorem fromChar_text (c : Char) : (SuperChar.fromChar c).text = [c] := by
  rw [fromChar_eq, symWord_text]
  rfl

/-- Text is being collected. -/
def collecting (style : Option HtmlTextStyle) (acc : Str) : TextState :=
  { styles := [(0, style, none)], builder := some acc }

/-- What has been collected -/
def collected (style : Option HtmlTextStyle) (acc : Str) : List TextSnippet :=
  if acc = [] then [] else [⟨style, none, none, acc⟩]

theorem collecting_char {style : Option HtmlTextStyle} {acc : Str} (c : SuperChar) :
    (collecting style acc).char c = collecting style (acc ++ c.text) := by
  show ({ collecting style acc with builder := some (acc ++ c.text ++ []), accent := none } : TextState) = _
  rw [List.append_nil]; rfl

theorem collecting_close {style : Option HtmlTextStyle} {acc : Str} :
    ((collecting style acc).close acc).styles = [] ∧
    ((collecting style acc).close acc).snippets = collected style acc := by
  cases acc with
  | nil => exact ⟨rfl, rfl⟩
  | cons c acc => exact ⟨rfl, rfl⟩

theorem textStep_text {style : Option HtmlTextStyle} {acc s : Str} {x : Token} (h : textChar x = some s) :
    textStep true x (collecting style acc) = .next (collecting style (acc ++ s)) ∧ Named x = true := by
  have hb : Sym.LEFT_SQUARE_BRACKET.asOp.sc.text = ['['] ∧ Sym.RIGHT_SQUARE_BRACKET.asOp.sc.text = [']'] := by
    decide +kernel
  cases x with
  | letter c fm =>
    cases fm with
    | mathOrText =>
      cases h
      exact ⟨congrArg TextOutcome.next (collecting_char c), rfl⟩
    | _ => cases h
  | textMode y =>
    cases y with
    | letter c =>
      cases h
      refine ⟨?_, rfl⟩
      show TextOutcome.next ((collecting style acc).char (SuperChar.fromChar c)) = _
      rw [collecting_char, fromChar_text]
    | _ => cases h
  | digit c =>
    cases h
    refine ⟨?_, rfl⟩
    show TextOutcome.next ((collecting style acc).char (SuperChar.fromChar c)) = _
    rw [collecting_char, fromChar_text]
  | mathOrTextMode y c =>
    cases h
    refine ⟨?_, rfl⟩
    show TextOutcome.next ((collecting style acc).char (SuperChar.fromChar c)) = _
    rw [collecting_char, fromChar_text]
  | whitespace =>
    cases h
    refine ⟨?_, rfl⟩
    show TextOutcome.next ((collecting style acc).char (SuperChar.fromChar _)) = _
    rw [collecting_char, fromChar_text]; rfl
  | nonBreakingSpace =>
    cases h
    refine ⟨?_, rfl⟩
    show TextOutcome.next ((collecting style acc).char (SuperChar.fromChar _)) = _
    rw [collecting_char, fromChar_text]; rfl
  | squareBracketOpen =>
    cases h
    refine ⟨?_, rfl⟩
    show TextOutcome.next ((collecting style acc).char _) = _
    rw [collecting_char, hb.1]
  | squareBracketClose =>
    cases h
    refine ⟨?_, rfl⟩
    show TextOutcome.next ((collecting style acc).char _) = _
    rw [collecting_char, hb.2]
  | _ => cases h

theorem textStep_name {style : Option HtmlTextStyle} {acc s : Str} {x : Token} (h : nameChar x = some s) :
    textStep false x (collecting style acc) = .next (collecting style (acc ++ s)) ∧ Named x = true := by
  have hb : Sym.LEFT_SQUARE_BRACKET.asOp.sc.text = ['['] ∧ Sym.RIGHT_SQUARE_BRACKET.asOp.sc.text = [']'] := by
    decide +kernel
  cases x with
  | letter c fm =>
    cases h
    refine ⟨?_, rfl⟩
    cases fm <;> exact congrArg TextOutcome.next (collecting_char c)
  | digit c =>
    cases h
    refine ⟨?_, rfl⟩
    show TextOutcome.next ((collecting style acc).char (SuperChar.fromChar c)) = _
    rw [collecting_char, fromChar_text]
  | squareBracketOpen =>
    cases h
    refine ⟨?_, rfl⟩
    show TextOutcome.next ((collecting style acc).char _) = _
    rw [collecting_char, hb.1]
  | squareBracketClose =>
    cases h
    refine ⟨?_, rfl⟩
    show TextOutcome.next ((collecting style acc).char _) = _
    rw [collecting_char, hb.2]
  | _ => first
    | (cases h; done)
    | (cases h; exact ⟨congrArg TextOutcome.next (collecting_char _), rfl⟩)

theorem textBy_cons {p : Token → Option Str} {x : Token} {text : List Token} {str : Str}
    (h : textBy p (x :: text) = some str) : ∃ s s', p x = some s ∧ textBy p text = some s' ∧ str = s ++ s' := by
  unfold textBy at h
  cases h1 : p x with
  | none => rw [h1] at h; cases h
  | some s =>
    cases h2 : textBy p text with
    | none => rw [h1, h2] at h; cases h
    | some s' =>
      rw [h1, h2] at h
      cases h
      exact ⟨s, s', rfl, rfl, rfl⟩

theorem extractTextLoop_step {textMode : Bool} {fuel : Nat} {t : TextState} (h : t.styles ≠ []) :
    extractTextLoop textMode (fuel + 1) t = (do
      let tok ← if textMode then P.nextAny else P.next
      match textStep textMode tok.tok t with
      | .next t => extractTextLoop textMode fuel t
      | .fail k => P.fail tok.span k
      | .raise t =>
        let new ← parseRaise
        let voffset := match t.top.2.2 with
          | some current => current.add new
          | none => new
        extractTextLoop textMode fuel (t.enter t.top.2.1 (some voffset))) := by
  cases hs : t.styles with
  | nil => exact absurd hs h
  | cons x xs =>
    conv => lhs; unfold extractTextLoop
    rw [hs]
    rfl

theorem extractTextLoop_done {textMode : Bool} {fuel : Nat} {t : TextState} (h : t.styles = []) :
    extractTextLoop textMode (fuel + 1) t = (Pure.pure t.snippets : P _) := by
  conv => lhs; unfold extractTextLoop
  rw [h]
  rfl

/-- Collect text -/
theorem does_collect {style : Option HtmlTextStyle} {text : List Token} {str acc : Str} {fuel : Nat}
    (ht : textBy textChar text = some str) (hf : text.length + 1 < fuel) :
    Does cfg k (fun _ => extractTextLoop true fuel (collecting style acc)) (tight text ++ ⟨.groupEnd, true⟩ :: ts) l ts
      (.ok (collected style (acc ++ str), l)) := by
  induction text generalizing str acc fuel with
  | nil =>
    obtain ⟨fuel, rfl⟩ : ∃ j, fuel = j + 2 := ⟨fuel - 2, by have : 0 + 1 < fuel := hf; omega⟩
    cases ht
    rw [List.append_nil, extractTextLoop_step (by intro h; cases h)]
    refine Does.nextRaw_bind rfl rfl fun sp => ?_
    show Does cfg k (fun _ => extractTextLoop true (fuel + 1) ((collecting style acc).close acc)) _ _ _ _
    rw [extractTextLoop_done collecting_close.1, collecting_close.2]
    exact Does.pure
  | cons x text ih =>
    obtain ⟨fuel, rfl⟩ : ∃ j, fuel = j + 1 := ⟨fuel - 1, by have : _ < fuel := hf; omega⟩
    obtain ⟨s, s', h1, h2, rfl⟩ := textBy_cons ht
    obtain ⟨h3, h4⟩ := textStep_text (style := style) (acc := acc) h1
    rw [extractTextLoop_step (by intro h; cases h)]
    show Does cfg k _ (⟨x, true⟩ :: (tight text ++ ⟨.groupEnd, true⟩ :: ts)) _ _ _
    refine Does.nextRaw_bind rfl h4 fun sp => ?_
    dsimp only
    rw [h3, ← List.append_assoc]
    exact ih h2 (by rw [List.length_cons] at hf; omega)

/-- Collect the name of a function -/
theorem does_collectName {style : Option HtmlTextStyle} {text : List Token} {str acc : Str} {fuel : Nat}
    (ht : textBy (fun t => nameChar t.unwrapMath) text = some str) (hf : text.length + 1 < fuel) :
    Does cfg k (fun _ => extractTextLoop false fuel (collecting style acc))
      (text.map (fun t => ⟨t, false⟩) ++ ⟨.groupEnd, false⟩ :: ts) l ts (.ok (collected style (acc ++ str), l)) := by
  induction text generalizing str acc fuel with
  | nil =>
    obtain ⟨fuel, rfl⟩ : ∃ j, fuel = j + 2 := ⟨fuel - 2, by have : 0 + 1 < fuel := hf; omega⟩
    cases ht
    rw [List.append_nil, extractTextLoop_step (by intro h; cases h)]
    refine Does.next_bind rfl rfl fun sp => ?_
    show Does cfg k (fun _ => extractTextLoop false (fuel + 1) ((collecting style acc).close acc)) _ _ _ _
    rw [extractTextLoop_done collecting_close.1, collecting_close.2]
    exact Does.pure
  | cons x text ih =>
    obtain ⟨fuel, rfl⟩ : ∃ j, fuel = j + 1 := ⟨fuel - 1, by have : _ < fuel := hf; omega⟩
    obtain ⟨s, s', h1, h2, rfl⟩ := textBy_cons ht
    obtain ⟨h3, h4⟩ := textStep_name (style := style) (acc := acc) h1
    have hw : x.isWs = false := by cases x <;> first | rfl | (cases h1; done)
    rw [extractTextLoop_step (by intro h; cases h)]
    show Does cfg k _ (⟨x, false⟩ :: (text.map (fun t => ⟨t, false⟩) ++ ⟨.groupEnd, false⟩ :: ts)) _ _ _
    refine Does.next_bind hw h4 fun sp => ?_
    dsimp only
    rw [h3, ← List.append_assoc]
    exact ih h2 (by rw [List.length_cons] at hf; omega)

/-- There are at least as many tokens to come as there are in the text. -/
theorem textBy_count {text : List Token} {str : Str} (ht : textBy textChar text = some str) {s : PState}
    (h : Is cfg s (tight text ++ ts) c) : text.length ≤ cnt s.q := by
  induction text generalizing s str with
  | nil => exact Nat.zero_le _
  | cons x text ih =>
    obtain ⟨s1, s2, h1, h2, rfl⟩ := textBy_cons ht
    have hn : Named x = true := (textStep_text (style := none) (acc := []) h1).2
    have he : x.isEoi = false := by cases x <;> first | rfl | (cases h1; done)
    obtain ⟨qt, post, h1, h3, h7⟩ := Is.head h rfl
    have h1' : s.q.queue = [qt] ++ post := h1
    rcases nextAny_spec cfg s.q h.inv h1 with ⟨q', h4, h5, h6, -⟩ | ⟨e, q', h4, h5, h6⟩
    · have h8 := ih h2 (h.after h1' h5 h6 h7)
      have h8 : text.length ≤ cnt q' := h8
      have h9 := h5.cnt
      have h10 := @mu_drop one 1 s.q [] qt post h1
      have h11 : one qt.tok = 1 := by unfold one; rw [h3, he]; rfl
      unfold cnt at h8 h9 ⊢
      rw [List.length_cons]
      omega
    · exfalso
      rcases h6 with h6 | h6
      · obtain ⟨i, hi⟩ := h5.stream_error h1' h6
        obtain ⟨x, hx⟩ := h.clean i
        rw [hi] at hx; cases hx
      · exact not_rejected (by rw [h3]; exact hn) h6

theorem Is.tail {s : PState} (h : Is cfg s (t :: ts) c) (ht : t.tight = true) (hn : Named t.tok = true) (he : t.tok.isEoi = false) :
    ∃ q', Is cfg { s with q := q' } ts c ∧ cnt q' + 1 ≤ cnt s.q := by
  obtain ⟨qt, post, h1, h3, h7⟩ := Is.head h ht
  have h1' : s.q.queue = [qt] ++ post := h1
  rcases nextAny_spec cfg s.q h.inv h1 with ⟨q', h4, h5, h6, -⟩ | ⟨e, q', h4, h5, h6⟩
  · refine ⟨q', h.after h1' h5 h6 h7, ?_⟩
    have h9 := h5.cnt
    have h10 := @mu_drop one 1 s.q [] qt post h1
    have h11 : one qt.tok = 1 := by unfold one; rw [h3, he]; rfl
    unfold cnt at h9 ⊢
    omega
  · exfalso
    rcases h6 with h6 | h6
    · obtain ⟨i, hi⟩ := h5.stream_error h1' h6
      obtain ⟨x, hx⟩ := h.clean i
      rw [hi] at hx; cases hx
    · exact not_rejected (by rw [h3]; exact hn) h6

/-- Text in braces -/
theorem does_text {style : Option HtmlTextStyle} {text : List Token} {str : Str} (ht : textBy textChar text = some str) :
    Does cfg k (fun _ => extractText style none true) (⟨.groupBegin, true⟩ :: tight text ++ ⟨.groupEnd, true⟩ :: ts) l ts
      (.ok (collected style str, l)) := by
  have key : ∀ F, text.length + 1 < F → Does cfg k (fun _ => extractTextLoop true (F + 1) { styles := [(0, style, none)] })
      (⟨.groupBegin, true⟩ :: (tight text ++ ⟨.groupEnd, true⟩ :: ts)) l ts (.ok (collected style str, l)) := by
    intro F hF
    rw [extractTextLoop_step (by intro h; cases h)]
    refine Does.nextRaw_bind rfl rfl fun sp => ?_
    exact does_collect (acc := []) ht hF
  intro s hs
  have hs : Is cfg s (⟨.groupBegin, true⟩ :: (tight text ++ ⟨.groupEnd, true⟩ :: ts)) (k.at l) := hs
  obtain ⟨q', h1, h2⟩ := hs.tail rfl rfl rfl
  have h3 : text.length ≤ cnt q' := textBy_count ht h1
  have h4 := cnt_loopFuel s.q
  exact key s.q.loopFuel (by omega) s hs

/-- The name of a function in braces -/
theorem does_name {text : List Token} {str : Str} (ht : textBy (fun t => nameChar t.unwrapMath) text = some str) :
    Does cfg k (fun _ => extractText none none false)
      (⟨.groupBegin, false⟩ :: text.map (fun t => ⟨t, false⟩) ++ ⟨.groupEnd, false⟩ :: ts) l ts
      (.ok (collected none str, l)) := by
  have hsolid : ∀ t ∈ (⟨.groupBegin, false⟩ : Tk) :: text.map (fun t => ⟨t, false⟩), solid t.tok = true := by
    intro t ht'
    rcases List.mem_cons.1 ht' with rfl | ht'
    · rfl
    obtain ⟨x, hx, rfl⟩ := List.mem_map.1 ht'
    clear ht'
    induction text generalizing str with
    | nil => cases hx
    | cons y text ih =>
      obtain ⟨s, s', h1, h2, rfl⟩ := textBy_cons ht
      rcases List.mem_cons.1 hx with rfl | hx
      · rw [solid_iff]
        refine ⟨?_, ?_, ?_⟩
        · cases x <;> first | rfl | (cases h1; done)
        · cases x <;> first | rfl | (cases h1; done)
        · exact (textStep_name (style := none) (acc := []) h1).2
      · exact ih h2 hx (List.mem_cons_of_mem _ (List.mem_map.2 ⟨x, hx, rfl⟩))
  unfold extractText
  refine Does.loopFuel_bind (ts := ⟨.groupBegin, false⟩ :: text.map (fun t => ⟨t, false⟩)) hsolid fun F hF => ?_
  rw [extractTextLoop_step (by intro h; cases h)]
  refine Does.next_bind rfl rfl fun sp => ?_
  refine does_collectName (acc := []) ht ?_
  rw [List.length_cons, List.length_map] at hF
  omega

end Verif

import Verif.Lemmas.TexColor
/-! Every formula of LaTeX can be written. -/
namespace Verif
open Model Spec

/-- A source for some lexemes: there is a space after every command. -/
def printLexemes : List Lexeme → Str
  | [] => []
  | .char c :: ls | .next c :: ls => c :: printLexemes ls
  | .blank :: ls => ' ' :: printLexemes ls
  | .command name :: ls => '\\' :: name ++ ((if ls.head?.any Lexeme.tight then [] else c!" ") ++ printLexemes ls)
  | .opens name :: ls => c!"\\begin{" ++ name ++ '}' :: printLexemes ls
  | .closes name :: ls => c!"\\end{" ++ name ++ '}' :: printLexemes ls

/-- A character which can be written -/
def printableChar (c : Char) : Bool := !isAsciiWs c && decide (c ∉ ['\x00', '#', '%', '\\'])

/-- Commands about numbers -/
def noteNames : List Str := [c!"nonumber", c!"notag", c!"tag", c!"tag*", c!"label"]

/-- A command about numbers, or the start of a display -/
def isNote : Lexeme → Bool
  | .command name => noteNames.contains name
  | .opens name => displayRows.any fun r => r.name == name
  | _ => false

/-- A lexeme which can be written anywhere -/
def printable : Lexeme → Bool
  | .char c => printableChar c
  | .next c => printableChar c && !isAsciiAlpha c && c != '*'
  | .blank => false
  | .command [] => false
  | .command [c] => isAsciiAlpha c || c != '*'
  | .command name => (name.all isAsciiAlpha || name = c!"operatorname*") && !isNote (.command name)
  | .opens name => (name.all fun c => isAsciiAlpha c || c == '*') && !isNote (.opens name)
  | .closes name => name.all fun c => isAsciiAlpha c || c == '*'

/-- Lexemes which can be written; if `noted`, there may be commands about numbers. -/
inductive Solid (noted : Bool) : List Lexeme → Prop
  | nil : Solid noted []
  | cons {l ls} : printable l = true → Solid noted ls → Solid noted (l :: ls)
  | note {l ls} : noted = true → isNote l = true → Solid noted ls → Solid noted (l :: ls)
  | text {s ls} : (∀ c ∈ s, isText c = true) → singleSpaces s = true → Solid noted ls →
    Solid noted (.next '{' :: (s.map textLexeme ++ .next '}' :: ls))
  | columns {s : Str} {ls : List Lexeme} : (∀ c ∈ s, printableChar c = true) → Solid noted ls →
    Solid noted (.char '{' :: (s.map .next ++ .next '}' :: ls))

variable {noted : Bool}

theorem solid_append {as bs : List Lexeme} (ha : Solid noted as) (hb : Solid noted bs) : Solid noted (as ++ bs) := by
  induction ha with
  | nil => exact hb
  | cons h _ ih => exact .cons h ih
  | note h1 h2 _ ih => exact .note h1 h2 ih
  | text h1 h2 _ ih =>
    rw [List.cons_append, List.append_assoc]
    exact .text h1 h2 ih
  | columns h1 _ ih =>
    rw [List.cons_append, List.append_assoc]
    exact .columns h1 ih

theorem solid_all {ls : List Lexeme} (h : ls.all printable = true) : Solid noted ls := by
  induction ls with
  | nil => exact .nil
  | cons l ls ih =>
    rw [List.all_cons, Bool.and_eq_true] at h
    exact .cons h.1 (ih h.2)

theorem text_prints : ((List.range 128).all fun n => !isText (Char.ofNat n) || Char.ofNat n == ' ' ||
    printableChar (Char.ofNat n)) = true := by decide +kernel

theorem text_print {c : Char} (h : isText c = true) (hc : c ≠ ' ') : printableChar c = true := by
  have := List.all_eq_true.1 text_prints _ (List.mem_range.2 (text_ascii h))
  rw [Char.ofNat_toNat, h, beq_eq_false_iff_ne.2 hc] at this
  exact this

theorem printable_char {c : Char} (h : printableChar c = true) : isAsciiWs c = false ∧ c ∉ ['\x00', '#', '%', '\\'] := by
  unfold printableChar at h
  simpa only [Bool.and_eq_true, Bool.not_eq_true', decide_eq_true_eq] using h

theorem text_start {s : Str} {ls : List Lexeme} (h : ∀ c ∈ s, isText c = true) (hs : s.head? ≠ some ' ') :
    ∀ c ∈ (printLexemes (s.map textLexeme ++ .next '}' :: ls)).head?, isAsciiWs c = false := by
  intro c hc
  cases s with
  | nil => cases hc; decide
  | cons d s =>
    have hd : d ≠ ' ' := fun e => hs (by rw [e]; rfl)
    have : textLexeme d = .next d := if_neg hd
    rw [List.map_cons, this] at hc
    obtain rfl : d = c := Option.some.inj hc
    exact (printable_char (text_print (h _ List.mem_cons_self) hd)).1

theorem text_solid {ls : List Lexeme} (hl : Prints ls (printLexemes ls)) : (s : Str) → (∀ c ∈ s, isText c = true) →
    singleSpaces s = true → Prints (s.map textLexeme ++ .next '}' :: ls) (printLexemes (s.map textLexeme ++ .next '}' :: ls))
  | [], _, _ => .next (by decide) (by decide) hl
  | c :: s, h, hs => by
    have hs' : singleSpaces s = true ∧ (c = ' ' → s.head? ≠ some ' ') := by
      unfold singleSpaces at hs
      split at hs
      · cases hs
      · rename_i hn e
        cases e
        exact ⟨hs, fun e1 e2 => by
          cases s with
          | nil => cases e2
          | cons d s => injection e2 with e2; exact hn s e1 (by rw [e2])⟩
      · rename_i e
        cases e
    have ih := text_solid hl s (fun d hd => h d (List.mem_cons_of_mem _ hd)) hs'.1
    rw [List.map_cons]
    by_cases hc : c = ' '
    · have : textLexeme c = .blank := if_pos hc
      rw [this]
      exact .blank (w := c!" ") nofun ⟨fun d hd => by rw [List.mem_singleton.1 hd]; decide,
        text_start (fun d hd => h d (List.mem_cons_of_mem _ hd)) (hs'.2 hc)⟩ ih
    · have : textLexeme c = .next c := if_neg hc
      have hp := printable_char (text_print (h c List.mem_cons_self) hc)
      rw [this]
      exact .next hp.1 hp.2 ih

/-- What can be written does not begin with whitespace. -/
theorem solid_start {ls : List Lexeme} (h : Solid noted ls) : ∀ c ∈ (printLexemes ls).head?, isAsciiWs c = false := by
  intro c hc
  cases h with
  | nil => cases hc
  | @cons l ls h _ =>
    cases l with
    | char d => cases hc; exact (printable_char h).1
    | next d =>
      cases hc
      simp only [printable, Bool.and_eq_true] at h
      exact (printable_char h.1.1).1
    | blank => cases h
    | _ => cases hc; decide
  | @note l ls _ h _ =>
    cases l with
    | command _ => cases hc; decide
    | opens _ => cases hc; decide
    | _ => cases h
  | text _ _ _ => cases hc; decide
  | columns _ _ => cases hc; decide

/-- Nothing tight, unless it cannot be part of a command -/
theorem solid_tight {ls : List Lexeme} (h : Solid noted ls) : ∀ c ∈ ((if ls.head?.any Lexeme.tight then [] else c!" ") ++ printLexemes ls).head?,
    isAsciiAlpha c = false ∧ c ≠ '*' := by
  intro c hc
  cases h with
  | nil => cases hc; decide
  | @cons l ls h _ =>
    cases l with
    | next d =>
      cases hc
      simp only [printable, Bool.and_eq_true, Bool.not_eq_true', bne_iff_ne] at h
      exact ⟨h.1.2, h.2⟩
    | blank => cases h
    | _ => cases hc; decide
  | @note l ls _ h _ =>
    cases l with
    | command _ => cases hc; decide
    | opens _ => cases hc; decide
    | _ => cases h
  | text _ _ _ => cases hc; decide
  | columns _ _ => cases hc; decide

theorem solid_gap {ls : List Lexeme} (h : Solid noted ls) : Gap (if ls.head?.any Lexeme.tight then [] else c!" ") (printLexemes ls) := by
  refine ⟨fun c hc => ?_, solid_start h⟩
  split at hc
  · cases hc
  · rw [List.mem_singleton.1 hc]
    decide

theorem prints_all {ls : List Lexeme} (h : Solid noted ls) : Prints ls (printLexemes ls) := by
  induction h with
  | nil => exact .nil
  | text h1 h2 _ ih => exact .next (by decide) (by decide) (text_solid ih _ h1 h2)
  | @columns s ls h1 _ ih =>
    refine .char (by decide) (by decide) ?_
    induction s with
    | nil => exact .next (by decide) (by decide) ih
    | cons c s ihs =>
      have hc := h1 c List.mem_cons_self
      have := ihs fun d hd => h1 d (List.mem_cons_of_mem _ hd)
      exact .next (printable_char hc).1 (printable_char hc).2 this
  | @note l ls _ h hs ih =>
    cases l with
    | command name =>
      have hword : ∀ name : Str, name ≠ [] → name.all isAsciiAlpha = true →
          Prints (.command name :: ls) (printLexemes (.command name :: ls)) := fun name hn ha =>
        .word hn (List.all_eq_true.1 ha) (solid_gap hs) (solid_tight hs) ih
      replace h : name ∈ noteNames := List.contains_iff_mem.1 h
      simp only [noteNames, List.mem_cons, List.not_mem_nil, or_false] at h
      rcases h with rfl | rfl | rfl | rfl | rfl
      · exact hword _ nofun (by decide)
      · exact hword _ nofun (by decide)
      · exact hword _ nofun (by decide)
      · exact .starred (name := c!"tag") (w := if ls.head?.any Lexeme.tight then [] else c!" ") nofun (by decide) (solid_gap hs) ih
      · exact hword _ nofun (by decide)
    | opens name =>
      obtain ⟨r, hr, hn⟩ := List.any_eq_true.1 h
      rw [beq_iff_eq] at hn
      have : (displayRows.all fun r => r.name.all fun c => isAsciiAlpha c || c == '*') = true := by decide
      have := List.all_eq_true.1 this r hr
      rw [hn] at this
      exact .opens (fun c hc => by simpa using List.all_eq_true.1 this c hc) ih
    | _ => cases h
  | @cons l ls h hs ih =>
    have hword : ∀ name : Str, name ≠ [] → name.all isAsciiAlpha = true →
        Prints (.command name :: ls) (printLexemes (.command name :: ls)) := fun name hn ha =>
      .word hn (List.all_eq_true.1 ha) (solid_gap hs) (solid_tight hs) ih
    cases l with
    | char c =>
      have hp := printable_char (c := c) h
      exact .char hp.1 hp.2 ih
    | next c =>
      simp only [printable, Bool.and_eq_true] at h
      have hp := printable_char h.1.1
      exact .next hp.1 hp.2 ih
    | blank => cases h
    | opens name =>
      simp only [printable, Bool.and_eq_true] at h
      exact .opens (fun c hc => by simpa using List.all_eq_true.1 h.1 c hc) ih
    | closes name => exact .closes (fun c hc => by simpa using List.all_eq_true.1 h c hc) ih
    | command name =>
      match name, h with
      | [c], h =>
        cases ha : isAsciiAlpha c with
        | true => exact hword [c] nofun (by rw [List.all_cons, ha]; rfl)
        | false =>
          replace h : (isAsciiAlpha c || c != '*') = true := h
          rw [ha] at h
          exact .sign (w := if ls.head?.any Lexeme.tight then [] else c!" ") ha (bne_iff_ne.1 h) (solid_gap hs) ih
      | a :: b :: name, h =>
        replace h : (((a :: b :: name).all isAsciiAlpha || decide (a :: b :: name = c!"operatorname*")) &&
          !isNote (.command (a :: b :: name))) = true := h
        rw [Bool.and_eq_true, Bool.or_eq_true, decide_eq_true_eq] at h
        rcases h.1 with h | h
        · exact hword (a :: b :: name) nofun h
        · rw [h]
          exact .starred (name := c!"operatorname") (w := if ls.head?.any Lexeme.tight then [] else c!" ") nofun (by decide) (solid_gap hs) ih

/-! ### Nothing about numbers -/

theorem entry_known {α : Type} {k : Str} {v : α} {l : List (Str × α)} (h : l.lookup k = some v) : (k, v) ∈ l := by
  obtain ⟨l1, l2, rfl, _⟩ := List.lookup_eq_some_iff.1 h
  exact List.mem_append_right _ List.mem_cons_self

theorem calm_commands : (commands.all fun r => noteNames.contains r.1 || calmTok r.2) = true := by decide +kernel

theorem calm_envs : (environments.all fun r => displayRows.any (fun d => d.name == r.1) || (envNumbering r.2).isNone) = true := by
  decide +kernel

theorem charToken_calm (c : Char) : calmTok (Lexer.charToken c) = true := by
  unfold Lexer.charToken
  split <;> try rfl
  split
  · rfl
  · split
    · rfl
    · split
      · rename_i h
        unfold getOperatorFromUnicode at h
        rw [Option.map_eq_some_iff] at h
        obtain ⟨_, _, rfl⟩ := h
        rfl
      · rfl

theorem command_calm {name : Str} (h : noteNames.contains name = false) : calmTok ((fixedTok name).getD .relax) = true := by
  unfold fixedTok
  split
  · cases hc : commands.lookup name with
    | some t =>
      have := List.all_eq_true.1 calm_commands (name, t) (entry_known hc)
      rw [h] at this
      exact this
    | none => dsimp only [Option.or]; split <;> rfl
  · rfl

theorem printable_calm {l : Lexeme} (h : printable l = true) : calmTok l.tok = true := by
  cases l with
  | char c => exact charToken_calm c
  | next c => exact charToken_calm c
  | blank => rfl
  | closes name => rfl
  | opens name =>
    simp only [printable, isNote, Bool.and_eq_true, Bool.not_eq_true'] at h
    show (envNumbering ((Env.fromStr name).getD .matrix)).isNone = true
    cases he : Env.fromStr name with
    | none => rfl
    | some e =>
      unfold Env.fromStr at he
      have := List.all_eq_true.1 calm_envs (name, e) (entry_known he)
      rw [h.2] at this
      exact this
  | command name =>
    match name, h with
    | [c], _ => exact command_calm (by simp [noteNames])
    | a :: b :: name, h =>
      simp only [printable, isNote, Bool.and_eq_true, Bool.not_eq_true'] at h
      exact command_calm h.2

/-- Where there are no commands about numbers, nothing is about numbers. -/
theorem solid_calm {ls : List Lexeme} (h : Solid false ls) : ∀ l ∈ ls, calmTok l.tok = true := by
  have text : ∀ (s : Str) (f : Char → Lexeme) (hf : ∀ c, calmTok (f c).tok = true) (ls : List Lexeme),
      (∀ l ∈ ls, calmTok l.tok = true) → ∀ l ∈ s.map f ++ .next '}' :: ls, calmTok l.tok = true := by
    intro s f hf ls ih l hl
    rw [List.mem_append, List.mem_map, List.mem_cons] at hl
    rcases hl with ⟨c, _, rfl⟩ | rfl | hl
    · exact hf c
    · rfl
    · exact ih l hl
  induction h with
  | nil => nofun
  | cons h _ ih => exact List.forall_mem_cons.2 ⟨printable_calm h, ih⟩
  | note h => cases h
  | text _ _ _ ih => exact List.forall_mem_cons.2 ⟨rfl, text _ textLexeme (fun c => by unfold textLexeme; split; rfl; exact charToken_calm c) _ ih⟩
  | columns _ _ ih => exact List.forall_mem_cons.2 ⟨rfl, text _ .next charToken_calm _ ih⟩

/-- Lexemes which can be written since their parts can -/
macro "solids" : tactic => `(tactic| repeat' first | assumption | exact Solid.nil | refine solid_append ?_ ?_ | refine Solid.cons ?_ ?_)

/-! ### Tables -/

set_option maxRecDepth 100000 in
theorem named_print : namedSymbols.all (fun r => printable (.command r.name)) = true := by decide +kernel
theorem functions_print : functionRows.all (fun r => printable (.command r.name)) = true := by decide +kernel
theorem fractions_print : (fractionNames ++ binomialNames ++ spaceNames ++ sizeNames ++
  [c!"phantom", c!"hphantom", c!"vphantom"]).all (fun n => printable (.command n)) = true := by decide +kernel
theorem accents_print : (accentRows ++ braceRows).all (fun r => printable (.command r.name)) = true := by decide +kernel
theorem arrows_print : arrowRows.all (fun r => printable (.command r.name)) = true := by decide +kernel
theorem strokes_print : strokeRows.all (fun r => printable (.command r.1)) = true := by decide +kernel
theorem fonts_print : fontRows.all (fun r => printable (.command r.name)) = true := by decide +kernel
theorem delims_print : delimRows.all (fun r => printable r.written) = true := by decide +kernel
theorem tables_print : tableRows.all (fun r => printable (.opens r.name)) = true := by decide +kernel
theorem arrays_print : arrayNames.all (fun n => printable (.opens n)) = true := by decide +kernel

theorem texts_print : textRows.all (fun r => printable (.command r.name)) = true := by decide +kernel
theorem negated_print : negatedRows.all (fun r => printable r.written) = true := by decide +kernel
theorem styles_print : styleNames.all (fun n => printable (.command n)) = true := by decide +kernel

theorem columns_print : ∀ c ∈ c!"lcr|", printableChar c = true := by decide

theorem opens_closes {name : Str} (h : printable (.opens name) = true) : printable (.closes name) = true := by
  simp only [printable, Bool.and_eq_true] at h
  exact h.1

theorem ascii_prints : ((List.range 128).all fun n => !(isAsciiDigit (Char.ofNat n) || isAsciiAlpha (Char.ofNat n)) ||
    printableChar (Char.ofNat n)) = true := by decide +kernel

theorem ascii_print {c : Char} (h : (isAsciiDigit c || isAsciiAlpha c) = true) : printableChar c = true := by
  by_cases hk : c.toNat < 128
  · have := List.all_eq_true.1 ascii_prints _ (List.mem_range.2 hk)
    rw [Char.ofNat_toNat, h] at this
    simpa using this
  · exfalso
    revert h
    simp only [isAsciiDigit, isAsciiAlpha, Bool.or_eq_true, Bool.and_eq_true, decide_eq_true_eq, Char.le_def, UInt32.le_iff_toNat_le]
    have : c.val.toNat = c.toNat := rfl
    simp only [this]
    intro h
    have e1 : '9'.val.toNat = 57 := rfl
    have e2 : 'z'.val.toNat = 122 := rfl
    have e3 : 'Z'.val.toNat = 90 := rfl
    omega

theorem symbol_print {c : Char} (h : isSymbol c = true) : printableChar c = true := by
  have h2 : c ∉ ['\x00', '#', '%', '\\'] := by
    intro hm
    simp only [List.mem_cons, List.not_mem_nil, or_false] at hm
    rcases hm with rfl | rfl | rfl | rfl <;> revert h <;> decide
  unfold isSymbol at h
  simp only [Bool.and_eq_true, Bool.not_eq_true'] at h
  unfold printableChar
  rw [h.1.1.1, decide_eq_true h2]
  rfl

theorem braced_print {ls : List Lexeme} (h : Solid noted ls) : Solid noted (braced ls) := by
  have h1 : printable (.char '{') = true := by decide
  have h2 : printable (.char '}') = true := by decide
  show Solid noted (Lexeme.char '{' :: ls ++ [.char '}'])
  solids

theorem chars_print {s : Str} (h : ∀ c ∈ s, printableChar c = true) : Solid noted (s.map Lexeme.char) := by
  refine solid_all ?_
  rw [List.all_eq_true]
  intro l hl
  obtain ⟨c, hc, rfl⟩ := List.mem_map.1 hl
  exact h c hc

theorem primes_print (n : Nat) : Solid noted (primeMarks n) := by
  refine solid_all ?_
  show (Lexeme.char '\'' :: List.replicate n _).all printable = true
  rw [List.all_cons, Bool.and_eq_true]
  refine ⟨by decide, List.all_eq_true.2 fun l hl => ?_⟩
  rw [(List.mem_replicate.1 hl).2]
  decide

theorem number_print {w d : Str} (hw : w.all isAsciiDigit = true) (hd : d.all isAsciiDigit = true) :
    Solid noted ((numberText w d).map Lexeme.char) := by
  refine chars_print fun c hc => ?_
  have digit : ∀ s : Str, s.all isAsciiDigit = true → c ∈ s → printableChar c = true := fun s hs hm =>
    ascii_print (by rw [List.all_eq_true.1 hs c hm]; rfl)
  rcases List.mem_append.1 hc with h | h
  · exact digit w hw h
  · split at h
    · cases h
    · rcases List.mem_cons.1 h with rfl | h
      · decide
      · exact digit d hd h

theorem name_print {name : Str} (h : name ∈ fractionNames ++ binomialNames ++ spaceNames ++ sizeNames ++
    [c!"phantom", c!"hphantom", c!"vphantom"]) : printable (.command name) = true := List.all_eq_true.1 fractions_print name h

theorem letters_print {name : Str} (h : name.all isAsciiAlpha = true) : Solid noted (braced (name.map .char)) :=
  braced_print (chars_print fun c hc => ascii_print (by rw [List.all_eq_true.1 h c hc, Bool.or_true]))

theorem command_sqrt : printable (.command c!"sqrt") = true := by decide
theorem command_left : printable (.command c!"left") = true := by decide
theorem command_right : printable (.command c!"right") = true := by decide
theorem command_row : printable (.command c!"\\") = true := by decide
theorem command_operator : printable (.command c!"operatorname") = true := by decide
theorem command_starred : printable (.command c!"operatorname*") = true := by decide
theorem command_middle : printable (.command c!"middle") = true := by decide
theorem command_not : printable (.command c!"not") = true := by decide
theorem command_limits (above : Bool) : printable (.command (limitsName above)) = true := by
  cases above <;> decide
theorem command_stack (over : Bool) : printable (.command (if over then c!"overset" else c!"underset")) = true := by
  cases over <;> decide
theorem char_script (over : Bool) : printable (.char (if over then '^' else '_')) = true := by
  cases over <;> decide
theorem char_open : printable (.char '[') = true := by decide
theorem char_close : printable (.char ']') = true := by decide
theorem char_sub : printable (.char '_') = true := by decide
theorem char_sup : printable (.char '^') = true := by decide
theorem next_sup : printable (.next '^') = true := by decide
theorem char_amp : printable (.char '&') = true := by decide

theorem tag_prints : ((List.range 128).all fun n => !isTagChar (Char.ofNat n) || printableChar (Char.ofNat n)) = true := by
  decide +kernel

theorem tag_print {c : Char} (h : isTagChar c = true) : printableChar c = true := by
  have := List.all_eq_true.1 tag_prints _ (List.mem_range.2 (tag_ascii h))
  rw [Char.ofNat_toNat, h] at this
  simpa using this

theorem textIn_print {s : Str} (hs : s.all isTagChar = true) {ls : List Lexeme} (h : Solid noted ls) :
    Solid noted (Lexeme.textIn s ++ ls) := by
  unfold Lexeme.textIn
  rw [List.cons_append, List.append_assoc]
  exact .columns (fun c hc => tag_print (List.all_eq_true.1 hs c hc)) h

theorem color_print : printable (.command c!"color") = true := by decide

theorem colour_print {x : Colour} (h : x.proper = true) {ls : List Lexeme} (hl : Solid noted ls) : Solid noted (x.lexemes ++ ls) := by
  have := textIn_print (colour_chars h) hl
  unfold Colour.lexemes colorLexemes
  rw [List.cons_append, List.append_assoc]
  refine .cons color_print (solid_append ?_ this)
  cases x
  · exact .nil
  all_goals exact solid_all (by simp only [Colour.model]; decide)

set_option maxHeartbeats 1000000 in
mutual
/-- The lexemes of a formula can be written. -/
theorem tex_print (bracket cell : Bool) : ∀ t : Tex, t.proper bracket cell = true → Solid noted t.lexemes
  | .nil, _ => .nil
  | .style name rest, h => by
    unfold Tex.proper at h
    simp only [Bool.and_eq_true, decide_eq_true_eq] at h
    exact .cons (List.all_eq_true.1 styles_print name h.1.2) (tex_print bracket cell rest h.2)
  | .color x rest, h => by
    unfold Tex.proper at h
    simp only [Bool.and_eq_true] at h
    exact colour_print h.1.2 (tex_print bracket cell rest h.2)
  | .item n s rest, h => by
    unfold Tex.proper at h
    simp only [Bool.and_eq_true] at h
    unfold Tex.lexemes
    have := nuc_print bracket n s _ h.1.1
    have := scr_print s h.1.2
    have := tex_print bracket cell rest h.2
    solids
theorem nuc_print (bracket : Bool) : ∀ (n : Nuc) (s : Scr) (after : List Lexeme), n.proper bracket s after = true →
    Solid noted n.lexemes
  | .char c, s, after, h => by
    unfold Nuc.proper at h
    simp only [Bool.and_eq_true] at h
    exact chars_print (s := [c]) fun d hd => by rw [List.mem_singleton.1 hd]; exact symbol_print h.1.1
  | .named row, s, after, h => by
    unfold Nuc.proper at h
    simp only [Bool.and_eq_true, decide_eq_true_eq] at h
    unfold Nuc.lexemes
    have := List.all_eq_true.1 named_print row h.1.1
    solids
  | .number w d, s, after, h => by
    unfold Nuc.proper at h
    simp only [Bool.and_eq_true] at h
    unfold Nuc.lexemes
    exact number_print h.1.1.2 h.1.2
  | .function row, s, after, h => by
    unfold Nuc.proper at h
    unfold Nuc.lexemes
    have := List.all_eq_true.1 functions_print row (of_decide_eq_true h)
    solids
  | .operator name, s, after, h => by
    unfold Nuc.proper at h
    unfold Nuc.lexemes
    exact .cons command_operator (letters_print h)
  | .braces f, s, after, h => by
    unfold Nuc.proper at h
    unfold Nuc.lexemes
    exact braced_print (tex_print false false f h)
  | .fraction binomial name a b, s, after, h => by
    unfold Nuc.proper at h
    simp only [Bool.and_eq_true, decide_eq_true_eq] at h
    unfold Nuc.lexemes
    refine .cons (name_print ?_) (solid_append (arg_print a h.1.2) (arg_print b h.2))
    have := h.1.1
    cases binomial <;> simp_all
  | .root a, s, after, h => by
    unfold Nuc.proper at h
    unfold Nuc.lexemes
    have := command_sqrt
    have := arg_print a h
    solids
  | .rootOf degree a, s, after, h => by
    unfold Nuc.proper at h
    simp only [Bool.and_eq_true] at h
    unfold Nuc.lexemes
    have := command_sqrt
    have := char_open
    have := char_close
    have := arg_print a h.2
    have := tex_print true false degree h.1
    solids
  | .accent row a, s, after, h => by
    unfold Nuc.proper at h
    simp only [Bool.and_eq_true, decide_eq_true_eq] at h
    unfold Nuc.lexemes
    have := arg_print a h.2
    have := List.all_eq_true.1 accents_print row (List.mem_append_left _ h.1)
    solids
  | .brace row a, s, after, h => by
    unfold Nuc.proper at h
    simp only [Bool.and_eq_true, decide_eq_true_eq] at h
    unfold Nuc.lexemes
    have := arg_print a h.1.2
    have := List.all_eq_true.1 accents_print row (List.mem_append_right _ h.1.1)
    solids
  | .labelled row a label, s, after, h => by
    unfold Nuc.proper at h
    simp only [Bool.and_eq_true, decide_eq_true_eq] at h
    unfold Nuc.lexemes
    have := char_script (over := row.over)
    have := arg_print a h.1.1.2
    have := arg_print label h.1.2
    have := List.all_eq_true.1 accents_print row (List.mem_append_right _ h.1.1.1)
    solids
  | .stack over symbol base, s, after, h => by
    unfold Nuc.proper at h
    simp only [Bool.and_eq_true] at h
    unfold Nuc.lexemes
    have := command_stack over
    have := arg_print symbol h.1
    have := arg_print base h.2
    solids
  | .fence l r f, s, after, h => by
    unfold Nuc.proper at h
    simp only [Bool.and_eq_true, decide_eq_true_eq] at h
    unfold Nuc.lexemes
    have := command_left
    have := command_right
    have := List.all_eq_true.1 delims_print l h.1.1
    have := List.all_eq_true.1 delims_print r h.1.2
    have := tex_print false false f h.2
    solids
  | .space name, s, after, h => by
    unfold Nuc.proper at h
    simp only [Bool.and_eq_true, decide_eq_true_eq] at h
    unfold Nuc.lexemes
    have := name_print (name := name) (by simp [h.1])
    solids
  | .font row c, s, after, h => by
    unfold Nuc.proper at h
    simp only [Bool.and_eq_true, decide_eq_true_eq] at h
    unfold Nuc.lexemes
    exact .cons (List.all_eq_true.1 fonts_print row h.1.1) (letters_print (name := [c]) (by rw [List.all_cons, h.1.2]; rfl))
  | .sized name d, s, after, h => by
    unfold Nuc.proper at h
    simp only [Bool.and_eq_true, decide_eq_true_eq] at h
    unfold Nuc.lexemes
    have := name_print (name := name) (by simp [h.1.1])
    have := List.all_eq_true.1 delims_print d h.1.2
    solids
  | .arrow row label, s, after, h => by
    unfold Nuc.proper at h
    simp only [Bool.and_eq_true, decide_eq_true_eq] at h
    unfold Nuc.lexemes
    have := List.all_eq_true.1 arrows_print row h.1
    have := arg_print label h.2
    solids
  | .arrowBoth row below label, s, after, h => by
    unfold Nuc.proper at h
    simp only [Bool.and_eq_true, decide_eq_true_eq] at h
    unfold Nuc.lexemes
    have := char_open
    have := char_close
    have := List.all_eq_true.1 arrows_print row h.1.1
    have := tex_print true false below h.1.2
    have := arg_print label h.2
    solids
  | .phantom name a, s, after, h => by
    unfold Nuc.proper at h
    simp only [Bool.and_eq_true, decide_eq_true_eq] at h
    unfold Nuc.lexemes
    have := arg_print a h.2
    have := name_print (List.mem_append_right _ h.1)
    solids
  | .stroke row a, s, after, h => by
    unfold Nuc.proper at h
    simp only [Bool.and_eq_true, decide_eq_true_eq] at h
    unfold Nuc.lexemes
    have := arg_print a h.2
    have := List.all_eq_true.1 strokes_print row h.1
    solids
  | .text row x, s, after, h => by
    unfold Nuc.proper at h
    simp only [Bool.and_eq_true, decide_eq_true_eq] at h
    unfold Nuc.lexemes
    exact .cons (List.all_eq_true.1 texts_print row h.1.1.1) (.text (List.all_eq_true.1 h.1.2) h.2 .nil)
  | .word row x, s, after, h => by
    unfold Nuc.proper at h
    simp only [Bool.and_eq_true, decide_eq_true_eq] at h
    unfold Nuc.lexemes
    exact .cons (List.all_eq_true.1 fonts_print row h.1.1.1) (letters_print h.1.2)
  | .fenceMiddle l m r f g, s, after, h => by
    unfold Nuc.proper at h
    simp only [Bool.and_eq_true, decide_eq_true_eq] at h
    unfold Nuc.lexemes
    have := command_left
    have := command_middle
    have := command_right
    have := List.all_eq_true.1 delims_print l h.1.1.1.1.1
    have := List.all_eq_true.1 delims_print m h.1.1.1.1.2
    have := List.all_eq_true.1 delims_print r h.1.1.1.2
    have := tex_print false true f h.1.2
    have := tex_print false true g h.2
    solids
  | .symbolLimits row above, s, after, h => by
    unfold Nuc.proper at h
    simp only [Bool.and_eq_true, decide_eq_true_eq] at h
    exact .cons (List.all_eq_true.1 named_print row h.1.1) (.cons (command_limits above) .nil)
  | .functionLimits row above, s, after, h => by
    unfold Nuc.proper at h
    exact .cons (List.all_eq_true.1 functions_print row (of_decide_eq_true h)) (.cons (command_limits above) .nil)
  | .operatorLimits name, s, after, h => by
    unfold Nuc.proper at h
    exact .cons command_starred (letters_print h)
  | .negated row, s, after, h => by
    unfold Nuc.proper at h
    exact .cons command_not (.cons (List.all_eq_true.1 negated_print row (of_decide_eq_true h)) .nil)
  | .table row t, s, after, h => by
    unfold Nuc.proper at h
    simp only [Bool.and_eq_true, decide_eq_true_eq] at h
    unfold Nuc.lexemes
    have hr := List.all_eq_true.1 tables_print row h.1
    have hc := opens_closes hr
    have := hr
    have := hc
    have := table_print row.columns t h.2
    solids
  | .array name columns t, s, after, h => by
    unfold Nuc.proper at h
    simp only [Bool.and_eq_true, decide_eq_true_eq] at h
    unfold Nuc.lexemes
    have hr := List.all_eq_true.1 arrays_print name h.1.1
    have hc := opens_closes hr
    have hcs := h.1.2
    unfold isColumns at hcs
    simp only [Bool.and_eq_true] at hcs
    exact .cons hr (.columns (fun c hm => columns_print c (of_decide_eq_true (List.all_eq_true.1 hcs.1.1 c hm)))
      (solid_append (table_print true t h.2) (.cons hc .nil)))
theorem arg_print : ∀ a : TexArg, a.proper = true → Solid noted a.lexemes
  | .braces f, h => by
    unfold TexArg.proper at h
    unfold TexArg.lexemes
    exact braced_print (tex_print false false f h)
  | .char c, h => by
    unfold TexArg.proper at h
    simp only [Bool.and_eq_true] at h
    exact chars_print (s := [c]) fun d hd => by rw [List.mem_singleton.1 hd]; exact symbol_print h.1.1
  | .named row, h => by
    unfold TexArg.proper at h
    simp only [Bool.and_eq_true, decide_eq_true_eq] at h
    unfold TexArg.lexemes
    have := List.all_eq_true.1 named_print row h.1.1.1
    solids
theorem scr_print : ∀ s : Scr, s.proper = true → Solid noted s.lexemes
  | .none, _ => .nil
  | .sub a, h => by
    unfold Scr.proper at h
    unfold Scr.lexemes
    have := char_sub
    have := arg_print a h
    solids
  | .sup a, h => by
    unfold Scr.proper at h
    unfold Scr.lexemes
    have := char_sup
    have := arg_print a h
    solids
  | .subSup a b, h => by
    unfold Scr.proper at h
    simp only [Bool.and_eq_true] at h
    unfold Scr.lexemes
    have := char_sub
    have := char_sup
    have := arg_print a h.1
    have := arg_print b h.2
    solids
  | .supSub b a, h => by
    unfold Scr.proper at h
    simp only [Bool.and_eq_true] at h
    unfold Scr.lexemes
    have := char_sub
    have := char_sup
    have := arg_print a h.1
    have := arg_print b h.2
    solids
  | .primes n, _ => primes_print n
  | .primesSub n a, h => by
    unfold Scr.proper at h
    simp only [Bool.and_eq_true] at h
    unfold Scr.lexemes
    have := char_sub
    have := primes_print (noted := noted) n
    have := arg_print a h.2
    solids
  | .subPrimes a n, h => by
    unfold Scr.proper at h
    simp only [Bool.and_eq_true] at h
    unfold Scr.lexemes
    have := char_sub
    have := primes_print (noted := noted) n
    have := arg_print a h.2
    solids
  | .primesSup n b, h => by
    unfold Scr.proper at h
    simp only [Bool.and_eq_true] at h
    unfold Scr.lexemes
    have := next_sup
    have := primes_print (noted := noted) n
    have := arg_print b h.2
    solids
theorem table_print (columns : Bool) : ∀ t : Table, t.proper columns = true → Solid noted t.lexemes
  | .last f, h => by
    unfold Table.proper at h
    unfold Table.lexemes
    exact tex_print false true f h
  | .amp f rest, h => by
    unfold Table.proper at h
    simp only [Bool.and_eq_true] at h
    unfold Table.lexemes
    have := char_amp
    have := tex_print false true f h.1.2
    have := table_print columns rest h.2
    solids
  | .newRow f rest, h => by
    unfold Table.proper at h
    simp only [Bool.and_eq_true] at h
    unfold Table.lexemes
    have := command_row
    have := tex_print false true f h.1.1
    have := table_print columns rest h.1.2
    solids
end

end Verif

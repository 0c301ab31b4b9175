import Verif.Spec.Compound
import Verif.Lemmas.TexColor
/-! The braces of a formula match. -/
namespace Verif
open Model Spec

/-- The braces match, if `depth` are open, and there are no spaces (these are in texts). -/
def evenBraces : Nat → List Lexeme → Bool
  | depth, [] => depth == 0
  | _, .blank :: _ => false
  | depth, .char c :: ls | depth, .next c :: ls =>
    if c = '{' then evenBraces (depth + 1) ls
    else if c = '}' then depth != 0 && evenBraces (depth - 1) ls
    else evenBraces depth ls
  | depth, .command name :: ls => !([c!"begingroup", c!"endgroup"].contains name) && evenBraces depth ls
  | depth, .opens _ :: ls | depth, .closes _ :: ls => evenBraces depth ls

/-- The braces of this part match, unless there are spaces in it. -/
def Level (ls : List Lexeme) : Prop := (∀ l ∈ ls, l ≠ .blank) → ∀ d r, evenBraces d (ls ++ r) = evenBraces d r

/-- A lexeme which is not a brace -/
def noBrace : Lexeme → Bool
  | .char c | .next c => c != '{' && c != '}'
  | .command name => !([c!"begingroup", c!"endgroup"].contains name)
  | _ => true

theorem level_nil : Level [] := fun _ _ _ => rfl

theorem level_append {xs ys : List Lexeme} (hx : Level xs) (hy : Level ys) : Level (xs ++ ys) := fun h d r => by
  rw [List.append_assoc, hx (fun l hl => h l (List.mem_append_left _ hl)), hy (fun l hl => h l (List.mem_append_right _ hl))]

theorem level_cons {l : Lexeme} {ls : List Lexeme} (hl : noBrace l = true) (hs : Level ls) : Level (l :: ls) := fun h d r => by
  have g := hs (fun l hl => h l (.tail _ hl)) d r
  rw [List.cons_append]
  cases l with
  | blank => exact absurd rfl (h _ (.head _))
  | char c | next c =>
    unfold noBrace at hl
    rw [Bool.and_eq_true, bne_iff_ne, bne_iff_ne] at hl
    rw [evenBraces, if_neg hl.1, if_neg hl.2, g]
  | command name =>
    have hl' : (!([c!"begingroup", c!"endgroup"].contains name)) = true := hl
    rw [evenBraces, hl', g]
    rfl
  | opens n | closes n => rw [evenBraces, g]

theorem level_all : ∀ {ls : List Lexeme}, ls.all noBrace = true → Level ls
  | [], _ => level_nil
  | l :: ls, h => by
    rw [List.all_cons, Bool.and_eq_true] at h
    exact level_cons h.1 (level_all h.2)

/-- Braces around something -/
theorem level_braces {o c : Lexeme} (ho : o = .char '{' ∨ o = .next '{') (hc : c = .char '}' ∨ c = .next '}') {ls : List Lexeme} (h : Level ls) :
    Level (o :: (ls ++ [c])) := fun hb d r => by
  have g := h (fun l hl => hb l (.tail _ (List.mem_append_left _ hl))) (d + 1) (c :: r)
  have e : o :: (ls ++ [c]) ++ r = o :: (ls ++ c :: r) := by simp
  rw [e]
  have e1 : evenBraces d (o :: (ls ++ c :: r)) = evenBraces (d + 1) (ls ++ c :: r) := by
    rcases ho with rfl | rfl <;> rw [evenBraces, if_pos rfl]
  have e2 : evenBraces (d + 1) (c :: r) = evenBraces d r := by
    rcases hc with rfl | rfl <;> rw [evenBraces, if_neg (by decide), if_pos rfl] <;> rfl
  rw [e1, g, e2]

theorem level_braced {ls : List Lexeme} (h : Level ls) : Level (braced ls) := level_braces (.inl rfl) (.inl rfl) h

theorem level_map {f : Char → Lexeme} {s : Str} {p : Char → Bool} (hs : s.all p = true) (hf : ∀ c, p c = true → noBrace (f c) = true) :
    Level (s.map f) := by
  apply level_all
  rw [List.all_map, List.all_eq_true]
  exact fun c hc => hf c (List.all_eq_true.1 hs c hc)

theorem noBrace_char {p : Char → Bool} (h1 : p '{' = false) (h2 : p '}' = false) {c : Char} (h : p c = true) :
    noBrace (.char c) = true ∧ noBrace (.next c) = true := by
  have : (c != '{' && c != '}') = true := by
    rw [Bool.and_eq_true, bne_iff_ne, bne_iff_ne]
    exact ⟨fun e => (by rw [e, h1] at h; cases h), fun e => (by rw [e, h2] at h; cases h)⟩
  exact ⟨this, this⟩

theorem noBrace_alpha {c : Char} (h : isAsciiAlpha c = true) : noBrace (.char c) = true := (noBrace_char (by decide) (by decide) h).1
theorem noBrace_digit {c : Char} (h : isAsciiDigit c = true) : noBrace (.char c) = true := (noBrace_char (by decide) (by decide) h).1
theorem noBrace_symbol {c : Char} (h : isSymbol c = true) : noBrace (.char c) = true := (noBrace_char (by decide) (by decide) h).1

theorem noBrace_text {c : Char} (h : isText c = true) : noBrace (textLexeme c) = true := by
  unfold textLexeme
  split
  · rfl
  · exact (noBrace_char (p := isText) (by decide) (by decide) h).2

set_option maxRecDepth 100000 in
theorem noBrace_named : (namedSymbols.all fun r => noBrace (.command r.name)) = true := by decide +kernel
theorem noBrace_functions : (functionRows.all fun r => noBrace (.command r.name)) = true := by decide +kernel
theorem noBrace_names : ((styleNames ++ fractionNames ++ binomialNames ++ spaceNames ++ sizeNames ++ [c!"phantom", c!"hphantom", c!"vphantom"]).all
    fun n => noBrace (.command n)) = true := by decide +kernel
theorem noBrace_accents : ((accentRows ++ braceRows).all fun r => noBrace (.command r.name)) = true := by decide +kernel
theorem noBrace_delims : (delimRows.all fun r => noBrace r.written) = true := by decide +kernel
theorem noBrace_arrows : (arrowRows.all fun r => noBrace (.command r.name)) = true := by decide +kernel
theorem noBrace_strokes : (strokeRows.all fun r => noBrace (.command r.1)) = true := by decide +kernel
theorem noBrace_texts : (textRows.all fun r => noBrace (.command r.name)) = true := by decide +kernel
theorem noBrace_fonts : (fontRows.all fun r => noBrace (.command r.name)) = true := by decide +kernel
theorem noBrace_negated : (negatedRows.all fun r => noBrace r.written) = true := by decide +kernel

theorem name_in {n : Str} (h : n ∈ styleNames ++ fractionNames ++ binomialNames ++ spaceNames ++ sizeNames ++ [c!"phantom", c!"hphantom", c!"vphantom"]) :
    noBrace (.command n) = true := List.all_eq_true.1 noBrace_names n h

theorem level_primes (n : Nat) : Level (primeMarks n) := by
  apply level_all
  unfold primeMarks
  rw [List.all_cons, Bool.and_eq_true, List.all_eq_true]
  refine ⟨by decide, fun x hx => ?_⟩
  rw [List.eq_of_mem_replicate hx]
  decide

theorem level_number {w d : Str} (hw : w.all isAsciiDigit = true) (hd : d.all isAsciiDigit = true) : Level ((numberText w d).map .char) := by
  refine level_map (p := fun c => isAsciiDigit c || c == '.') ?_ fun c hc => (noBrace_char (p := fun c => isAsciiDigit c || c == '.') (by decide) (by decide) hc).1
  unfold numberText
  rw [List.all_append, Bool.and_eq_true]
  have g : ∀ s : Str, s.all isAsciiDigit = true → (s.all fun c => isAsciiDigit c || c == '.') = true := fun s hs =>
    List.all_eq_true.2 fun c hc => by rw [List.all_eq_true.1 hs c hc]; rfl
  refine ⟨g w hw, ?_⟩
  split
  · rfl
  · rw [List.all_cons, g d hd]
    decide

theorem level_colour {x : Colour} (h : x.proper = true) : Level x.lexemes := by
  have ht : Level (Lexeme.textIn x.text) := level_braces (.inl rfl) (.inr rfl)
    (level_map (colour_chars h) fun c hc => (noBrace_char (p := isTagChar) (by decide) (by decide) hc).2)
  have hm := colour_model x
  unfold Colour.lexemes colorLexemes
  refine level_cons (by decide) (level_append ?_ ht)
  cases e : x.model with
  | none => exact level_nil
  | some m =>
    rw [e] at hm
    exact level_cons (by decide) (level_append (level_map hm fun c hc => noBrace_alpha hc) (level_cons (by decide) level_nil))

theorem limits_noBrace (above : Bool) : noBrace (.command (limitsName above)) = true := by cases above <;> decide

mutual
theorem level_tex : ∀ {b c : Bool} (f : Tex), f.proper b c = true → Level f.lexemes
  | _, _, .nil, _ => level_nil
  | _, _, .item n s rest, h => by
    rw [Tex.proper, Bool.and_eq_true, Bool.and_eq_true] at h
    exact level_append (level_nuc n h.1.1) (level_append (level_scr s h.1.2) (level_tex rest h.2))
  | _, _, .style name rest, h => by
    simp only [Tex.proper, Bool.and_eq_true, decide_eq_true_eq] at h
    exact level_cons (name_in (by simp [h.1.2])) (level_tex rest h.2)
  | _, _, .color x rest, h => by
    simp only [Tex.proper, Bool.and_eq_true] at h
    exact level_append (level_colour h.1.2) (level_tex rest h.2)
theorem level_nuc : ∀ {b : Bool} (n : Nuc) {s : Scr} {ls : List Lexeme}, n.proper b s ls = true → Level n.lexemes
  | _, .char c, _, _, h => by
    simp only [Nuc.proper, Bool.and_eq_true] at h
    exact level_cons (noBrace_symbol h.1.1) level_nil
  | _, .named row, _, _, h => by
    simp only [Nuc.proper, Bool.and_eq_true, decide_eq_true_eq] at h
    exact level_cons (List.all_eq_true.1 noBrace_named _ h.1.1) level_nil
  | _, .number w d, _, _, h => by
    simp only [Nuc.proper, Bool.and_eq_true] at h
    exact level_number h.1.1.2 h.1.2
  | _, .function row, _, _, h => by
    simp only [Nuc.proper, decide_eq_true_eq] at h
    exact level_cons (List.all_eq_true.1 noBrace_functions _ h) level_nil
  | _, .operator name, _, _, h => level_cons (by decide) (level_braced (level_map h fun c hc => noBrace_alpha hc))
  | _, .braces f, _, _, h => level_braced (level_tex f h)
  | _, .fraction bin name a b, _, _, h => by
    simp only [Nuc.proper, Bool.and_eq_true, decide_eq_true_eq] at h
    refine level_cons (name_in ?_) (level_append (level_arg a h.1.2) (level_arg b h.2))
    have h1 := h.1.1
    cases bin
    · rw [if_neg nofun] at h1; simp [h1]
    · rw [if_pos rfl] at h1; simp [h1]
  | _, .root a, _, _, h => level_cons (by decide) (level_arg a h)
  | _, .rootOf degree a, _, _, h => by
    simp only [Nuc.proper, Bool.and_eq_true] at h
    exact level_cons (by decide) (level_cons (by decide) (level_append (level_tex degree h.1) (level_cons (by decide) (level_arg a h.2))))
  | _, .accent row a, _, _, h => by
    simp only [Nuc.proper, Bool.and_eq_true, decide_eq_true_eq] at h
    exact level_cons (List.all_eq_true.1 noBrace_accents _ (by simp [h.1])) (level_arg a h.2)
  | _, .brace row a, _, _, h => by
    simp only [Nuc.proper, Bool.and_eq_true, decide_eq_true_eq] at h
    exact level_cons (List.all_eq_true.1 noBrace_accents _ (by simp [h.1.1])) (level_arg a h.1.2)
  | _, .labelled row a label, _, _, h => by
    simp only [Nuc.proper, Bool.and_eq_true, decide_eq_true_eq] at h
    refine level_cons (List.all_eq_true.1 noBrace_accents _ (by simp [h.1.1.1])) (level_append (level_arg a h.1.1.2)
      (level_cons ?_ (level_arg label h.1.2)))
    split <;> decide
  | _, .stack over symbol base, _, _, h => by
    simp only [Nuc.proper, Bool.and_eq_true] at h
    exact level_cons (by cases over <;> decide) (level_append (level_arg symbol h.1) (level_arg base h.2))
  | _, .fence l r f, _, _, h => by
    simp only [Nuc.proper, Bool.and_eq_true, decide_eq_true_eq] at h
    exact level_cons (by decide) (level_cons (List.all_eq_true.1 noBrace_delims _ h.1.1) (level_append (level_tex f h.2)
      (level_cons (by decide) (level_cons (List.all_eq_true.1 noBrace_delims _ h.1.2) level_nil))))
  | _, .space name, _, _, h => by
    simp only [Nuc.proper, Bool.and_eq_true, decide_eq_true_eq] at h
    exact level_cons (name_in (by simp [h.1])) level_nil
  | _, .font row c, _, _, h => by
    simp only [Nuc.proper, Bool.and_eq_true, decide_eq_true_eq] at h
    exact level_cons (List.all_eq_true.1 noBrace_fonts _ h.1.1) (level_braced (level_cons (noBrace_alpha h.1.2) level_nil))
  | _, .sized name d, _, _, h => by
    simp only [Nuc.proper, Bool.and_eq_true, decide_eq_true_eq] at h
    exact level_cons (name_in (by simp [h.1.1])) (level_cons (List.all_eq_true.1 noBrace_delims _ h.1.2) level_nil)
  | _, .arrow row label, _, _, h => by
    simp only [Nuc.proper, Bool.and_eq_true, decide_eq_true_eq] at h
    exact level_cons (List.all_eq_true.1 noBrace_arrows _ h.1) (level_arg label h.2)
  | _, .arrowBoth row below label, _, _, h => by
    simp only [Nuc.proper, Bool.and_eq_true, decide_eq_true_eq] at h
    exact level_cons (List.all_eq_true.1 noBrace_arrows _ h.1.1) (level_cons (by decide) (level_append (level_tex below h.1.2)
      (level_cons (by decide) (level_arg label h.2))))
  | _, .phantom name a, _, _, h => by
    simp only [Nuc.proper, Bool.and_eq_true, decide_eq_true_eq] at h
    exact level_cons (name_in (List.mem_append_right _ h.1)) (level_arg a h.2)
  | _, .stroke row a, _, _, h => by
    simp only [Nuc.proper, Bool.and_eq_true, decide_eq_true_eq] at h
    exact level_cons (List.all_eq_true.1 noBrace_strokes _ h.1) (level_arg a h.2)
  | _, .text row s, _, _, h => by
    simp only [Nuc.proper, Bool.and_eq_true, decide_eq_true_eq] at h
    exact level_cons (List.all_eq_true.1 noBrace_texts _ h.1.1.1) (level_braces (.inr rfl) (.inr rfl)
      (level_map h.1.2 fun c hc => noBrace_text hc))
  | _, .word row s, _, _, h => by
    simp only [Nuc.proper, Bool.and_eq_true, decide_eq_true_eq] at h
    exact level_cons (List.all_eq_true.1 noBrace_fonts _ h.1.1.1) (level_braced (level_map h.1.2 fun c hc => noBrace_alpha hc))
  | _, .fenceMiddle l m r f g, _, _, h => by
    simp only [Nuc.proper, Bool.and_eq_true, decide_eq_true_eq] at h
    obtain ⟨⟨⟨⟨⟨h1, h2⟩, h3⟩, -⟩, h5⟩, h6⟩ := h
    exact level_cons (by decide) (level_cons (List.all_eq_true.1 noBrace_delims _ h1) (level_append (level_tex f h5)
      (level_cons (by decide) (level_cons (List.all_eq_true.1 noBrace_delims _ h2) (level_append (level_tex g h6)
        (level_cons (by decide) (level_cons (List.all_eq_true.1 noBrace_delims _ h3) level_nil)))))))
  | _, .symbolLimits row above, _, _, h => by
    simp only [Nuc.proper, Bool.and_eq_true, decide_eq_true_eq] at h
    exact level_cons (List.all_eq_true.1 noBrace_named _ h.1.1) (level_cons (limits_noBrace above) level_nil)
  | _, .functionLimits row above, _, _, h => by
    simp only [Nuc.proper, decide_eq_true_eq] at h
    exact level_cons (List.all_eq_true.1 noBrace_functions _ h) (level_cons (limits_noBrace above) level_nil)
  | _, .operatorLimits name, _, _, h => level_cons (by decide) (level_braced (level_map h fun c hc => noBrace_alpha hc))
  | _, .negated row, _, _, h => by
    simp only [Nuc.proper, decide_eq_true_eq] at h
    exact level_cons (by decide) (level_cons (List.all_eq_true.1 noBrace_negated _ h) level_nil)
  | _, .table row t, _, _, h => by
    simp only [Nuc.proper, Bool.and_eq_true] at h
    exact level_cons rfl (level_append (level_table t h.2) (level_cons rfl level_nil))
  | _, .array name columns t, _, _, h => by
    simp only [Nuc.proper, isColumns, Bool.and_eq_true] at h
    have hc := level_braces (o := .char '{') (c := .next '}') (.inl rfl) (.inr rfl) (level_map (f := .next) h.1.2.1.1 fun c hc =>
      (noBrace_char (p := fun c => decide (c ∈ c!"lcr|")) (by decide) (by decide) hc).2)
    have := level_append hc (level_append (level_table t h.2) (level_cons (l := .closes name) rfl level_nil))
    rw [List.cons_append, List.append_assoc] at this
    exact level_cons rfl this
theorem level_arg : ∀ (a : TexArg), a.proper = true → Level a.lexemes
  | .braces f, h => level_braced (level_tex f h)
  | .char c, h => by
    simp only [TexArg.proper, Bool.and_eq_true] at h
    exact level_cons (noBrace_symbol h.1.1) level_nil
  | .named row, h => by
    simp only [TexArg.proper, Bool.and_eq_true, decide_eq_true_eq] at h
    exact level_cons (List.all_eq_true.1 noBrace_named _ h.1.1.1) level_nil
theorem level_scr : ∀ (s : Scr), s.proper = true → Level s.lexemes
  | .none, _ => level_nil
  | .sub a, h | .sup a, h => level_cons (by decide) (level_arg a h)
  | .subSup a b, h => by
    rw [Scr.proper, Bool.and_eq_true] at h
    exact level_cons (by decide) (level_append (level_arg a h.1) (level_cons (by decide) (level_arg b h.2)))
  | .supSub b a, h => by
    rw [Scr.proper, Bool.and_eq_true] at h
    exact level_cons (by decide) (level_append (level_arg b h.2) (level_cons (by decide) (level_arg a h.1)))
  | .primes n, _ => level_primes n
  | .primesSub n a, h => by
    rw [Scr.proper, Bool.and_eq_true] at h
    exact level_append (level_primes n) (level_cons (by decide) (level_arg a h.2))
  | .subPrimes a n, h => by
    rw [Scr.proper, Bool.and_eq_true] at h
    exact level_cons (by decide) (level_append (level_arg a h.2) (level_primes n))
  | .primesSup n a, h => by
    rw [Scr.proper, Bool.and_eq_true] at h
    exact level_append (level_primes n) (level_cons (by decide) (level_arg a h.2))
theorem level_table : ∀ {columns : Bool} (t : Table), t.proper columns = true → Level t.lexemes
  | _, .last f, h => level_tex f h
  | _, .amp f rest, h => by
    rw [Table.proper, Bool.and_eq_true, Bool.and_eq_true] at h
    exact level_append (level_tex f h.1.2) (level_cons (by decide) (level_table rest h.2))
  | _, .newRow f rest, h => by
    rw [Table.proper, Bool.and_eq_true, Bool.and_eq_true] at h
    exact level_append (level_tex f h.1.1) (level_cons (by decide) (level_table rest h.1.2))
end

theorem tex_even {f : Tex} {b c : Bool} (h : f.proper b c = true) (hb : f.lexemes.all (fun l => decide (l ≠ .blank)) = true) :
    evenBraces 0 f.lexemes = true := by
  have := level_tex f h (fun l hl => of_decide_eq_true (List.all_eq_true.1 hb l hl)) 0 []
  rw [List.append_nil] at this
  rw [this]
  rfl

end Verif

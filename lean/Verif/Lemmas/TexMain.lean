import Verif.Lemmas.TexColor
/-! Formulas of LaTeX as formulas of the grammar. -/
namespace Verif
open Model Spec

theorem shownFor_digit {c : Char} (h : isAsciiDigit c = true) : shownFor c = c := by
  rcases shownFor_eq (c := c) rfl with e | e | e | e | e
  · exact e.symm
  all_goals
    have hd : ∀ n < 128, isAsciiDigit (Char.ofNat n) = true → shownFor (Char.ofNat n) = Char.ofNat n := by decide +kernel
    have := hd c.toNat (by
      simp only [isAsciiDigit, Bool.and_eq_true, decide_eq_true_eq] at h
      have h2 := h.2
      have : c.toNat ≤ '9'.toNat := h2
      have h9 : '9'.toNat = 57 := rfl
      omega)
    rw [Char.ofNat_toNat] at this
    exact this h

theorem arg_char {c : Char} (h : isSymbol c = true) (ho : (typedSymbol c).type ≠ .op) (hb : c ≠ '[') :
    ∃ A, ArgGood [.char c] (if isAsciiDigit c then .leaf c!"mn" [c] else .sym [shownFor c]) A := by
  have hx := symbol_arg (t := Lexer.charToken c) (x := typedSymbol c) (ls := [.char c]) (typed_stands h) ho (symbol_shown h)
    (fun e => by
      rcases shownFor_eq (show shownFor c = '[' from e) with h' | h' | h' | h' | h'
      · exact hb h'
      all_goals exact absurd h' (by decide)) (fixed_one rfl) rfl
  refine ⟨_, cast (congrArg (fun t => ArgGood [.char c] t (.tok (Lexer.charToken c))) ?_) hx⟩
  cases hd : isAsciiDigit c with
  | true =>
    rw [digit_token hd]
    show Tree.leaf _ [shownFor c] = .leaf _ [c]
    rw [shownFor_digit hd]
  | false =>
    have : isDigitTok (Lexer.charToken c) = false := by
      cases hi : isDigitTok (Lexer.charToken c) with
      | false => rfl
      | true =>
        cases ht : Lexer.charToken c with
        | digit d => rw [(charToken_digit ht).1] at hd; cases hd
        | _ => rw [ht] at hi; cases hi
    rw [this]
    rfl

theorem arg_named {r : SymbolRow} (h : r ∈ namedSymbols) (ho : r.name ∉ oddSymbols) (ht : r.type ≠ .op) (hb : r.char ≠ 0x5b) :
    ∃ A, ArgGood [.command r.name] (.char r.char) A := by
  obtain ⟨t, h1, h2, h3, h4, h5⟩ := named_known h ho
  have hx := symbol_arg (t := t) (x := r.symbol) (ls := [.command r.name]) h2 ht h5
    (fun e => hb (char_ofNat e (by decide))) (fixed_one (fixed_cmd h1)) (by
      show [(⟨(Lexeme.command r.name).tok, false⟩ : Tk)] = _
      rw [tok_cmd h1])
  refine ⟨_, cast (congrArg (fun x => ArgGood [.command r.name] x (.tok t)) ?_) hx⟩
  have : isDigitTok t = false := by
    cases t <;> first | rfl | exact absurd rfl (h4 _)
  rw [this]
  rfl

theorem scr_nothing {s : Scr} (h : s.isNone = true) : s.lexemes = [] := by
  cases s <;> first | rfl | cases h

/-- What follows a part of a formula -/
theorem follows_item {s : Scr} {sc : Scripts} {trees : Option Tree × Option Tree} {lr : List Lexeme} {ts : List Tree}
    {bracket : Bool} {k r : Form} (hk : stops k) (hs : ScrGood s.lexemes trees sc) (hr : Extends lr ts bracket k r) :
    Follows s (s.lexemes ++ lr) (sc.tokens ++ r.tokens) := by
  refine ⟨fun h => ?_, fun h => ?_⟩
  · rw [hs.tokens, hr.tokens, ← List.append_assoc, ← tks_append]
    refine headNot_tks (fun l hl => lexeme_continues ?_) hk.2
    rw [Option.mem_def.1 hl] at h
    exact h
  · rw [hs.tokens, scr_nothing h]
    exact hr.first

theorem list_all {p : Char → Bool} {s : Str} (h : s.all p = true) : ∀ c ∈ s, p c = true := List.all_eq_true.1 h

theorem table_rows {ls : List Lexeme} {rows : List (List (List Tree))} {columns : Bool} {f : Form}
    (h : TableGood ls rows columns f) : ∃ row rest, rows = row :: rest := by
  obtain ⟨cell, cells, rest, k1, k2⟩ := h.rows (fun _ => none)
  rw [k1] at k2
  exact ⟨_, _, k2.symm⟩

set_option maxHeartbeats 1000000 in
mutual
/-- A formula of LaTeX is one of the grammar. -/
theorem tex_form (bracket cell : Bool) : (t : Tex) → t.proper bracket cell = true → ∀ k, stops k → (cell = false → k = .nil) →
    ∃ f, Extends t.lexemes t.trees bracket k f
  | .nil, _, k, hk, _ => ⟨k, extends_nil hk bracket⟩
  | .style name rest, h, k, hk, hc => by
    unfold Tex.proper at h
    simp only [Bool.and_eq_true, Bool.not_eq_true', decide_eq_true_eq] at h
    obtain ⟨⟨⟨rfl, rfl⟩, h1⟩, h2⟩ := h
    obtain rfl := hc rfl
    obtain ⟨r, hr⟩ := tex_form false false rest h2 .nil stops_nil fun _ => rfl
    unfold Tex.lexemes Tex.trees
    exact extends_style h1 hr
  | .color x rest, h, k, hk, hc => by
    unfold Tex.proper at h
    simp only [Bool.and_eq_true, Bool.not_eq_true'] at h
    obtain ⟨⟨⟨rfl, rfl⟩, h1⟩, h2⟩ := h
    obtain rfl := hc rfl
    obtain ⟨r, hr⟩ := tex_form false false rest h2 .nil stops_nil fun _ => rfl
    unfold Tex.lexemes Tex.trees
    exact ⟨_, extends_colour h1 hr⟩
  | .item n s rest, h, k, hk, hc => by
    unfold Tex.proper at h
    simp only [Bool.and_eq_true] at h
    obtain ⟨hd, hh⟩ := nuc_form bracket n s (s.lexemes ++ rest.lexemes) h.1.1
    obtain ⟨sc, hs⟩ := scr_form s h.1.2
    obtain ⟨r, hr⟩ := tex_form bracket cell rest h.2 k hk hc
    unfold Tex.lexemes Tex.trees
    exact ⟨_, extends_item hh hs hr (follows_item hk hs hr)⟩
/-- The same for what scripts are attached to -/
theorem nuc_form (bracket : Bool) : (n : Nuc) → (s : Scr) → (after : List Lexeme) → n.proper bracket s after = true →
    ∃ h, HeadGood n.lexemes n.tree n.limits bracket (Follows s after) h
  | .char c, s, after, h => by
    unfold Nuc.proper at h
    simp only [Bool.and_eq_true, Bool.not_eq_true', Bool.and_eq_false_iff, beq_eq_false_iff_ne] at h
    unfold Nuc.lexemes Nuc.tree Nuc.limits
    exact head_char h.1.1 h.1.2 fun e => by
      rcases h.2 with h2 | h2
      · rw [e] at h2; cases h2
      · exact h2
  | .named row, s, after, h => by
    unfold Nuc.proper at h
    simp only [Bool.and_eq_true, Bool.not_eq_true', Bool.and_eq_false_iff, beq_eq_false_iff_ne, decide_eq_true_eq] at h
    unfold Nuc.lexemes Nuc.tree Nuc.limits
    exact head_named h.1.1 h.1.2 fun e => by
      rcases h.2 with h2 | h2
      · rw [e] at h2; cases h2
      · exact h2
  | .number w d, s, after, h => by
    unfold Nuc.proper at h
    simp only [Bool.and_eq_true, Bool.not_eq_true'] at h
    obtain ⟨⟨⟨h1, h2⟩, h3⟩, h4⟩ := h
    unfold Nuc.lexemes Nuc.tree
    exact head_number (fun e => by rw [e] at h1; cases h1) (list_all h2) (list_all h3) fun ts hts => hts.1 h4
  | .function row, s, after, h => by
    unfold Nuc.proper at h
    unfold Nuc.lexemes Nuc.tree Nuc.limits
    exact head_function (of_decide_eq_true h)
  | .operator name, s, after, h => by
    unfold Nuc.proper at h
    unfold Nuc.lexemes Nuc.tree
    exact head_operator (list_all h)
  | .braces f, s, after, h => by
    unfold Nuc.proper at h
    unfold Nuc.lexemes Nuc.tree
    obtain ⟨g, hg⟩ := tex_form false false f h .nil stops_nil fun _ => rfl
    exact ⟨_, head_braces hg.closed⟩
  | .fraction binomial name a b, s, after, h => by
    unfold Nuc.proper at h
    simp only [Bool.and_eq_true, decide_eq_true_eq] at h
    unfold Nuc.lexemes Nuc.tree
    obtain ⟨A, hA⟩ := arg_form a h.1.2
    obtain ⟨B, hB⟩ := arg_form b h.2
    exact head_fraction h.1.1 hA hB
  | .root a, s, after, h => by
    unfold Nuc.proper at h
    unfold Nuc.lexemes Nuc.tree
    obtain ⟨A, hA⟩ := arg_form a h
    exact ⟨_, head_root hA⟩
  | .rootOf degree a, s, after, h => by
    unfold Nuc.proper at h
    simp only [Bool.and_eq_true] at h
    unfold Nuc.lexemes Nuc.tree
    obtain ⟨g, hg⟩ := tex_form true false degree h.1 .nil stops_nil fun _ => rfl
    obtain ⟨A, hA⟩ := arg_form a h.2
    exact ⟨_, head_rootOf hA hg.closed⟩
  | .accent row a, s, after, h => by
    unfold Nuc.proper at h
    simp only [Bool.and_eq_true, decide_eq_true_eq] at h
    unfold Nuc.lexemes Nuc.tree
    obtain ⟨A, hA⟩ := arg_form a h.2
    exact head_accent h.1 hA
  | .brace row a, s, after, h => by
    unfold Nuc.proper at h
    simp only [Bool.and_eq_true, decide_eq_true_eq] at h
    unfold Nuc.lexemes Nuc.tree
    obtain ⟨A, hA⟩ := arg_form a h.1.2
    exact head_brace h.1.1 hA fun ts hts => hts.2 h.2
  | .labelled row a label, s, after, h => by
    unfold Nuc.proper at h
    simp only [Bool.and_eq_true, decide_eq_true_eq] at h
    unfold Nuc.lexemes Nuc.tree
    obtain ⟨A, hA⟩ := arg_form a h.1.1.2
    obtain ⟨B, hB⟩ := arg_form label h.1.2
    exact head_labelled h.1.1.1 hA hB
  | .stack over symbol base, s, after, h => by
    unfold Nuc.proper at h
    simp only [Bool.and_eq_true] at h
    unfold Nuc.lexemes Nuc.tree
    obtain ⟨A, hA⟩ := arg_form symbol h.1
    obtain ⟨B, hB⟩ := arg_form base h.2
    exact head_stack hA hB
  | .fence l r f, s, after, h => by
    unfold Nuc.proper at h
    simp only [Bool.and_eq_true, decide_eq_true_eq] at h
    unfold Nuc.lexemes Nuc.tree
    obtain ⟨g, hg⟩ := tex_form false false f h.2 .nil stops_nil fun _ => rfl
    exact ⟨_, head_fence h.1.1 h.1.2 hg.closed⟩
  | .space name, s, after, h => by
    unfold Nuc.proper at h
    simp only [Bool.and_eq_true, decide_eq_true_eq] at h
    unfold Nuc.lexemes Nuc.tree
    exact head_space h.1
  | .font row c, s, after, h => by
    unfold Nuc.proper at h
    simp only [Bool.and_eq_true, decide_eq_true_eq, Bool.not_eq_true'] at h
    unfold Nuc.lexemes Nuc.tree
    exact head_font h.1.1 h.1.2 h.2
  | .sized name d, s, after, h => by
    unfold Nuc.proper at h
    simp only [Bool.and_eq_true, decide_eq_true_eq] at h
    unfold Nuc.lexemes Nuc.tree
    exact head_sized h.1.1 h.1.2 h.2
  | .arrow row label, s, after, h => by
    unfold Nuc.proper at h
    simp only [Bool.and_eq_true, decide_eq_true_eq] at h
    unfold Nuc.lexemes Nuc.tree
    obtain ⟨A, hA⟩ := arg_form label h.2
    exact head_arrow h.1 hA
  | .arrowBoth row below label, s, after, h => by
    unfold Nuc.proper at h
    simp only [Bool.and_eq_true, decide_eq_true_eq] at h
    unfold Nuc.lexemes Nuc.tree
    obtain ⟨g, hg⟩ := tex_form true false below h.1.2 .nil stops_nil fun _ => rfl
    obtain ⟨A, hA⟩ := arg_form label h.2
    exact head_arrowBoth h.1.1 hA hg.closed
  | .phantom name a, s, after, h => by
    unfold Nuc.proper at h
    simp only [Bool.and_eq_true, decide_eq_true_eq] at h
    unfold Nuc.lexemes Nuc.tree
    obtain ⟨A, hA⟩ := arg_form a h.2
    exact head_phantom h.1 hA
  | .stroke row a, s, after, h => by
    unfold Nuc.proper at h
    simp only [Bool.and_eq_true, decide_eq_true_eq] at h
    unfold Nuc.lexemes Nuc.tree
    obtain ⟨A, hA⟩ := arg_form a h.2
    exact head_stroke h.1 hA
  | .text row x, s, after, h => by
    unfold Nuc.proper at h
    simp only [Bool.and_eq_true, decide_eq_true_eq, Bool.not_eq_true'] at h
    unfold Nuc.lexemes Nuc.tree
    exact head_text h.1.1.1 (fun e => by rw [e] at h; exact absurd h.1.1.2 (by decide)) (list_all h.1.2)
  | .word row x, s, after, h => by
    unfold Nuc.proper at h
    simp only [Bool.and_eq_true, decide_eq_true_eq, Bool.not_eq_true'] at h
    unfold Nuc.lexemes Nuc.tree
    exact head_word h.1.1.1 h.1.1.2 (list_all h.1.2) h.2
  | .fenceMiddle l m r f g, s, after, h => by
    unfold Nuc.proper at h
    simp only [Bool.and_eq_true, decide_eq_true_eq] at h
    obtain ⟨⟨⟨⟨⟨h1, h2⟩, h3⟩, h4⟩, h5⟩, h6⟩ := h
    obtain ⟨g', hg⟩ := tex_form false true g h6 .nil stops_nil fun _ => rfl
    obtain ⟨k, hk, hm⟩ := extends_middle h2 h4 hg
    obtain ⟨f', hf⟩ := tex_form false true f h5 k hk fun e => by cases e
    have hh := head_fence (bracket := bracket) (follows := Follows s after) h1 h3 (extends_trans hf hm).closed
    unfold Nuc.lexemes Nuc.tree
    refine ⟨_, cast (congrArg (fun ls => HeadGood ls _ _ _ _ _) ?_) hh⟩
    simp only [List.append_assoc, List.cons_append]
  | .symbolLimits row above, s, after, h => by
    unfold Nuc.proper at h
    simp only [Bool.and_eq_true, decide_eq_true_eq] at h
    unfold Nuc.lexemes Nuc.tree Nuc.limits
    exact head_symbolLimits h.1.1 h.1.2 h.2
  | .functionLimits row above, s, after, h => by
    unfold Nuc.proper at h
    unfold Nuc.lexemes Nuc.tree Nuc.limits
    exact head_functionLimits (of_decide_eq_true h)
  | .operatorLimits name, s, after, h => by
    unfold Nuc.proper at h
    unfold Nuc.lexemes Nuc.tree Nuc.limits
    exact head_operatorLimits (list_all h)
  | .negated row, s, after, h => by
    unfold Nuc.proper at h
    unfold Nuc.lexemes Nuc.tree
    exact head_negated (of_decide_eq_true h)
  | .table row t, s, after, h => by
    unfold Nuc.proper at h
    simp only [Bool.and_eq_true, decide_eq_true_eq] at h
    obtain ⟨f, hf⟩ := table_form row.columns t h.2
    unfold Nuc.lexemes Nuc.tree
    exact head_table h.1 hf
  | .array name columns t, s, after, h => by
    unfold Nuc.proper at h
    simp only [Bool.and_eq_true, decide_eq_true_eq] at h
    obtain ⟨f, hf⟩ := table_form true t h.2
    unfold Nuc.lexemes Nuc.tree
    exact head_array h.1.1 h.1.2 hf
/-- The same for arguments -/
theorem arg_form : (a : TexArg) → a.proper = true → ∃ A, ArgGood a.lexemes a.tree A
  | .braces f, h => by
    unfold TexArg.proper at h
    unfold TexArg.lexemes TexArg.tree
    obtain ⟨g, hg⟩ := tex_form false false f h .nil stops_nil fun _ => rfl
    exact ⟨_, arg_braces hg.closed⟩
  | .char c, h => by
    unfold TexArg.proper at h
    simp only [Bool.and_eq_true, decide_eq_true_eq, bne_iff_ne] at h
    unfold TexArg.lexemes TexArg.tree
    exact arg_char h.1.1 h.1.2 h.2
  | .named row, h => by
    unfold TexArg.proper at h
    simp only [Bool.and_eq_true, decide_eq_true_eq, bne_iff_ne] at h
    unfold TexArg.lexemes TexArg.tree
    exact arg_named h.1.1.1 h.1.1.2 h.1.2 h.2
/-- The same for scripts -/
theorem scr_form : (s : Scr) → s.proper = true → ∃ x, ScrGood s.lexemes s.trees x
  | .none, _ => by
    unfold Scr.lexemes Scr.trees
    exact ⟨_, scr_none⟩
  | .primes n, h => by
    unfold Scr.proper at h
    unfold Scr.lexemes Scr.trees
    exact ⟨_, scr_primes (of_decide_eq_true h)⟩
  | .primesSub n a, h => by
    unfold Scr.proper at h
    simp only [Bool.and_eq_true, decide_eq_true_eq] at h
    unfold Scr.lexemes Scr.trees
    obtain ⟨A, hA⟩ := arg_form a h.2
    exact ⟨_, scr_primesSub h.1 hA⟩
  | .subPrimes a n, h => by
    unfold Scr.proper at h
    simp only [Bool.and_eq_true, decide_eq_true_eq] at h
    unfold Scr.lexemes Scr.trees
    obtain ⟨A, hA⟩ := arg_form a h.2
    exact ⟨_, scr_subPrimes h.1 hA⟩
  | .primesSup n b, h => by
    unfold Scr.proper at h
    simp only [Bool.and_eq_true, decide_eq_true_eq] at h
    unfold Scr.lexemes Scr.trees
    obtain ⟨B, hB⟩ := arg_form b h.2
    exact ⟨_, scr_primesSup h.1 hB⟩
  | .sub a, h => by
    unfold Scr.proper at h
    unfold Scr.lexemes Scr.trees
    obtain ⟨A, hA⟩ := arg_form a h
    exact ⟨_, scr_sub hA⟩
  | .sup a, h => by
    unfold Scr.proper at h
    unfold Scr.lexemes Scr.trees
    obtain ⟨A, hA⟩ := arg_form a h
    exact ⟨_, scr_sup hA⟩
  | .subSup a b, h => by
    unfold Scr.proper at h
    simp only [Bool.and_eq_true] at h
    unfold Scr.lexemes Scr.trees
    obtain ⟨A, hA⟩ := arg_form a h.1
    obtain ⟨B, hB⟩ := arg_form b h.2
    exact ⟨_, scr_subSup hA hB⟩
  | .supSub b a, h => by
    unfold Scr.proper at h
    simp only [Bool.and_eq_true] at h
    unfold Scr.lexemes Scr.trees
    obtain ⟨A, hA⟩ := arg_form a h.1
    obtain ⟨B, hB⟩ := arg_form b h.2
    exact ⟨_, scr_supSub hA hB⟩
/-- The same for tables -/
theorem table_form (columns : Bool) : (t : Table) → t.proper columns = true → ∃ f, TableGood t.lexemes t.rows columns f
  | .last f, h => by
    unfold Table.proper at h
    unfold Table.lexemes Table.rows
    obtain ⟨g, hg⟩ := tex_form false true f h .nil stops_nil fun _ => rfl
    exact ⟨g, table_last hg⟩
  | .amp f rest, h => by
    unfold Table.proper at h
    simp only [Bool.and_eq_true] at h
    obtain ⟨⟨h1, h2⟩, h3⟩ := h
    obtain ⟨k, hk⟩ := table_form columns rest h3
    obtain ⟨g, hg⟩ := tex_form false true f h2 (.amp k) (stops_amp k) (fun e => by cases e)
    obtain ⟨row, rows, e⟩ := table_rows hk
    unfold Table.lexemes Table.rows
    rw [e] at hk ⊢
    subst h1
    exact ⟨g, table_amp hk hg⟩
  | .newRow f rest, h => by
    unfold Table.proper at h
    simp only [Bool.and_eq_true] at h
    obtain ⟨⟨h1, h2⟩, h3⟩ := h
    obtain ⟨k, hk⟩ := table_form columns rest h2
    obtain ⟨g, hg⟩ := tex_form false true f h1 (.newLine none k) (stops_newLine k) (fun e => by cases e)
    unfold Table.lexemes Table.rows
    exact ⟨g, table_newRow hk hg⟩
end

end Verif

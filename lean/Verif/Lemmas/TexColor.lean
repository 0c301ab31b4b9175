import Verif.Lemmas.TexMore
import Verif.Lemmas.Color
/-! Texts in braces, and colours. -/
namespace Verif
open Model Spec

/-! ### Texts of tags and labels -/

theorem tagChars_known : ((List.range 128).all fun n => !isTagChar (Char.ofNat n) ||
    (recoverLimitedAscii (Lexer.charToken (Char.ofNat n)) == some (Char.ofNat n))) = true := by
  decide +kernel

theorem tag_ascii {c : Char} (h : isTagChar c = true) : c.toNat < 128 := by
  unfold isTagChar at h
  simp only [Bool.or_eq_true, decide_eq_true_eq] at h
  rcases h with (h | h) | h
  · exact text_ascii (by unfold isText; rw [h]; rfl)
  · exact text_ascii (by unfold isText; rw [h]; simp)
  · have : ∀ c ∈ c!":.,-+*/!?@=;|", c.toNat < 128 := by decide
    exact this c h

theorem tag_known {c : Char} (h : isTagChar c = true) :
    recoverLimitedAscii (Lexer.charToken c) = some c := by
  have := List.all_eq_true.1 tagChars_known _ (List.mem_range.2 (tag_ascii h))
  rw [Char.ofNat_toNat, h] at this
  simpa using this

theorem tag_text {s : Str} (h : s.all isTagChar = true) : plainText (s.map Lexer.charToken) = some s := by
  induction s with
  | nil => rfl
  | cons c s ih =>
    rw [List.all_cons, Bool.and_eq_true] at h
    rw [List.map_cons]
    unfold plainText
    rw [tag_known h.1, ih h.2]

theorem tks_textIn (s : Str) : tks (Lexeme.textIn s) = ⟨.groupBegin, false⟩ :: (tight (s.map Lexer.charToken) ++ [⟨.groupEnd, true⟩]) := by
  unfold Lexeme.textIn tks tight
  rw [List.map_cons, List.map_append, List.map_map, List.map_map]
  rfl

theorem textIn_fixed (s : Str) : ∀ l ∈ Lexeme.textIn s, l.fixed = true := by
  intro l hl
  unfold Lexeme.textIn at hl
  simp only [List.mem_cons, List.mem_append, List.mem_map, List.not_mem_nil, or_false] at hl
  rcases hl with rfl | ⟨c, _, rfl⟩ | rfl <;> rfl

/-! ### Colours -/

theorem color_known : fixedTok c!"color" = some .color := by
  have h : ∀ {o : Option Token} {t : Token}, (match o with | some t' => sameTok t' t | none => false) = true → o = some t := by
    intro o t h
    cases o with
    | none => cases h
    | some t' => rw [sameTok_eq h]
  exact h (by decide +kernel)

theorem named_chars : (namedColours.all fun row => row.1.all isTagChar) = true := by decide

theorem digit_tag {c : Char} (h : c.isDigit = true ∨ c = '.') : isTagChar c = true := by
  rcases h with h | rfl
  · unfold isTagChar
    have : isAsciiDigit c = true := h
    rw [this]
    simp
  · decide

theorem decimal_tag {n : Str × Str} (h : (n.1 ++ n.2).all Char.isDigit = true) : (decimalText n).all isTagChar = true :=
  List.all_eq_true.2 fun c hc => digit_tag (decimal_chars h c hc)

theorem digits_tag {s : Str} (h : s.all Char.isDigit = true) : s.all isTagChar = true :=
  List.all_eq_true.2 fun c hc => digit_tag (.inl (List.all_eq_true.1 h c hc))

theorem colour_chars {x : Colour} (h : x.proper = true) : x.text.all isTagChar = true := by
  have hcomma : isTagChar ',' = true := by decide
  cases x with
  | named row =>
    unfold Colour.proper at h
    simp only [Bool.and_eq_true, decide_eq_true_eq] at h
    exact List.all_eq_true.1 named_chars row h.1
  | html r r' g g' b b' =>
    unfold Colour.proper at h
    simp only [List.all_cons, List.all_nil, Bool.and_true, Bool.and_eq_true, decide_eq_true_eq] at h
    have key : ∀ d ∈ hexDigits, isTagChar d.1 = true := by decide
    obtain ⟨h1, h2, h3, h4, h5, h6⟩ := h
    simp only [Colour.text, List.all_cons, List.all_nil, key _ h1, key _ h2, key _ h3, key _ h4, key _ h5, key _ h6]
    rfl
  | whole r g b =>
    unfold Colour.proper at h
    simp only [Bool.and_eq_true] at h
    simp only [Colour.text, List.all_append, List.all_cons, hcomma, digits_tag (level_ok h.1.1).2.1, digits_tag (level_ok h.1.2).2.1,
      digits_tag (level_ok h.2).2.1]
    rfl
  | parts r g b =>
    unfold Colour.proper at h
    simp only [Bool.and_eq_true] at h
    simp only [Colour.text, List.all_append, List.all_cons, hcomma, decimal_tag (part_ok h.1.1).2.1, decimal_tag (part_ok h.1.2).2.1,
      decimal_tag (part_ok h.2).2.1]
    rfl

/-- The arguments of `\color` in the grammar -/
def colourArgs (model : Option Str) (text : Str) : ColorArgs := ⟨model.map (·.map Lexer.charToken), text.map Lexer.charToken⟩

theorem alpha_letters : ((List.range 128).all fun n => !isAsciiAlpha (Char.ofNat n) ||
    (modelName [Lexer.charToken (Char.ofNat n)] == some [Char.ofNat n])) = true := by
  decide +kernel

theorem model_cons (t : Token) (ts : List Token) : modelName (t :: ts) = (modelName [t]).bind fun s => (modelName ts).map (s ++ ·) := by
  cases t <;> first
    | rfl
    | (simp only [modelName, Option.map_some, Option.bind_some, List.append_nil])

theorem model_name {m : Str} (h : m.all isAsciiAlpha = true) : modelName (m.map Lexer.charToken) = some m := by
  induction m with
  | nil => rfl
  | cons c m ih =>
    rw [List.all_cons, Bool.and_eq_true] at h
    have hc : isTagChar c = true := by unfold isTagChar; rw [h.1]; rfl
    have := List.all_eq_true.1 alpha_letters _ (List.mem_range.2 (tag_ascii hc))
    rw [Char.ofNat_toNat, h.1] at this
    simp only [Bool.not_true, Bool.false_or, beq_iff_eq] at this
    rw [List.map_cons, model_cons, this, ih h.2]
    rfl

theorem args_ok {model : Option Str} {text : Str} (hm : (model.all fun m => m.all isAsciiAlpha) = true)
    (h : text.all isTagChar = true) : (colourArgs model text).ok = true := by
  unfold colourArgs ColorArgs.ok
  simp only [tag_text h]
  cases model with
  | none => rfl
  | some m =>
    simp only [Option.map_some, model_name hm]
    rfl

theorem args_value {model : Option Str} {text : Str} (hm : (model.all fun m => m.all isAsciiAlpha) = true)
    (h : text.all isTagChar = true) : (colourArgs model text).value = colourOf model text := by
  unfold colourArgs ColorArgs.value
  simp only [tag_text h]
  cases model with
  | none => rfl
  | some m =>
    simp only [Option.map_some, model_name hm]
    rfl

theorem colour_model (x : Colour) : (x.model.all fun m => m.all isAsciiAlpha) = true := by
  cases x <;> simp only [Colour.model] <;> decide

theorem tks_colour (model : Option Str) (text : Str) :
    tks (colorLexemes model text) = ⟨.color, false⟩ :: (colourArgs model text).tokens := by
  unfold colorLexemes
  rw [tks_cons, tok_cmd color_known, tks_append, tks_textIn]
  unfold ColorArgs.tokens colourArgs
  cases model with
  | none => rfl
  | some m =>
    simp only [Option.map_some, modelTokens, List.map_map]
    rw [tks_cons, tks_append]
    simp only [tks, List.map_map, List.cons_append, List.append_assoc]
    rfl

theorem colour_fixed (model : Option Str) (text : Str) : ∀ l ∈ colorLexemes model text, l.fixed = true := by
  intro l hl
  unfold colorLexemes at hl
  rcases List.mem_cons.1 hl with rfl | hl
  · exact fixed_cmd color_known
  · rcases List.mem_append.1 hl with hl | hl
    · split at hl
      · cases hl
      · simp only [List.mem_cons, List.mem_append, List.mem_map, List.not_mem_nil, or_false] at hl
        rcases hl with rfl | ⟨c, _, rfl⟩ | rfl <;> rfl
    · exact textIn_fixed _ l hl

theorem extends_color {model : Option Str} {text : Str} {lr : List Lexeme} {ts : List Tree} {r : Form} {rgb : Rgb}
    (hm : (model.all fun m => m.all isAsciiAlpha) = true) (ht : text.all isTagChar = true)
    (hv : (colourArgs model text).value = .ok rgb) (hr : Extends lr ts false .nil r) :
    Extends (colorLexemes model text ++ lr) [.node c!"mrow" ts] false .nil (.color (colourArgs model text) r) := by
  have hc := hr.closed
  refine ⟨fixed_append (colour_fixed model text) hr.fixed, ?_, rfl, fun _ => ?_, fun M _ => hc.linked M, fun _ _ => hc.tame false,
    fun _ => hc.unbroken, fun l l' nxt hk p => ?_, fun hk _ _ => ?_, ⟨rfl, rfl⟩, fun labels => ?_⟩
  · rw [tks_append, tks_colour]
    show _ :: ((colourArgs model text).tokens ++ r.tokens) = _
    rw [hc.tokens]
    exact (List.append_nil _).symm
  · show (!false && (colourArgs model text).ok && r.ok false) = true
    rw [args_ok hm ht, hc.ok]
    rfl
  · obtain ⟨ns, hn⟩ := hc.steady l p nxt
    obtain ⟨ns', hk⟩ := hk p
    cases hk
    unfold Form.denote
    rw [hv]
    simp only [Except.bind, bind, hn]
    exact ⟨_, rfl⟩
  · refine form_quiet r false (hc.tame false) (hc.linked _) ?_
    rw [hc.tokens]
    exact calm_tks fun l hl => hk l (List.mem_append_right _ hl)
  · obtain ⟨e1, e2⟩ := hc.shapes labels
    refine ⟨[.elem c!"mrow" (shapesOf (r.pieces labels))], rfl, ?_, fun s hs => ?_⟩
    · show [Tree.node _ (Shape.trees _)] = _
      rw [e1]
    · rw [List.mem_singleton.1 hs]
      rfl

theorem extends_colour {x : Colour} {lr : List Lexeme} {ts : List Tree} {r : Form} (hx : x.proper = true)
    (hr : Extends lr ts false .nil r) :
    Extends (x.lexemes ++ lr) [.node c!"mrow" ts] false .nil (.color (colourArgs x.model x.text) r) :=
  extends_color (colour_model x) (colour_chars hx) ((args_value (colour_model x) (colour_chars hx)).trans (colour_levels hx)) hr

end Verif

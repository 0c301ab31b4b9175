import Verif.Spec.Color
import Verif.Spec.Grammar
import Verif.Spec.Mathml
import Verif.Lemmas.Numbers
/-! Colours of xcolor have the right levels. -/
namespace Verif
open Model Spec

/-- The levels in the model -/
def rgbOf (l : Levels) : Rgb := (UInt8.ofNat l.red, UInt8.ofNat l.green, UInt8.ofNat l.blue)

/-! ### Lists with commas -/

theorem split_none {s : Str} (h : ∀ c ∈ s, c ≠ ',') : splitOn ',' s = [s] := by
  induction s with
  | nil => rfl
  | cons c s ih =>
    unfold splitOn
    rw [if_neg (h c (List.mem_cons_self ..)), ih fun d hd => h d (List.mem_cons_of_mem _ hd)]

theorem split_append {s t : Str} (h : ∀ c ∈ s, c ≠ ',') : splitOn ',' (s ++ ',' :: t) = s :: splitOn ',' t := by
  induction s with
  | nil => rfl
  | cons c s ih =>
    rw [List.cons_append, splitOn, if_neg (h c (List.mem_cons_self ..)), ih fun d hd => h d (List.mem_cons_of_mem _ hd)]

theorem split_three {a b c : Str} (ha : ∀ x ∈ a, x ≠ ',') (hb : ∀ x ∈ b, x ≠ ',') (hc : ∀ x ∈ c, x ≠ ',') :
    splitOn ',' (a ++ ',' :: (b ++ ',' :: c)) = [a, b, c] := by
  rw [split_append ha, split_append hb, split_none hc]

theorem trim_same {s : Str} (h : ∀ c ∈ s, isAsciiWs c = false) : trimAscii s = s := by
  have key : ∀ t : Str, (∀ c ∈ t, isAsciiWs c = false) → t.dropWhile isAsciiWs = t := by
    intro t ht
    cases t with
    | nil => rfl
    | cons c t => rw [List.dropWhile_cons, if_neg (by rw [ht c (List.mem_cons_self ..)]; decide)]
  unfold trimAscii trimAsciiEnd
  rw [key s h, key _ fun c hc => h c (List.mem_reverse.1 hc), List.reverse_reverse]

/-! ### Numbers -/

/-- A character of a decimal number -/
theorem digit_plain {c : Char} (h : c.isDigit = true ∨ c = '.') : c ≠ ',' ∧ isAsciiWs c = false := by
  rcases h with h | rfl
  · refine ⟨fun e => ?_, ?_⟩
    · subst e; revert h; decide
    · unfold Char.isDigit at h
      unfold isAsciiWs
      simp only [Bool.and_eq_true, decide_eq_true_eq] at h
      have h1 : 48 ≤ c.toNat := h.1
      have key : ∀ d : Char, d.toNat < 48 → c ≠ d := fun d hd e => by subst e; omega
      simp [key ' ' (by decide), key '\t' (by decide), key '\n' (by decide), key '\r' (by decide), key '\x0c' (by decide)]
  · decide

theorem decimal_chars {n : Str × Str} (h : (n.1 ++ n.2).all Char.isDigit = true) :
    ∀ c ∈ decimalText n, c.isDigit = true ∨ c = '.' := by
  intro c hc
  have h := List.all_eq_true.1 h
  unfold decimalText at hc
  rw [List.mem_append] at hc
  rcases hc with hc | hc
  · exact .inl (h c (List.mem_append_left _ hc))
  · split at hc
    · cases hc
    · rcases List.mem_cons.1 hc with rfl | hc
      · exact .inr rfl
      · exact .inl (h c (List.mem_append_right _ hc))

theorem decimal_parse {n : Str × Str} (h0 : n.1 ++ n.2 ≠ []) (h : (n.1 ++ n.2).all Char.isDigit = true)
    (hm : digitsValue (n.1 ++ n.2) < 2 ^ 64) :
    limitedFloatParse (trimAscii (decimalText n)) = some ⟨false, digitsValue (n.1 ++ n.2), n.2.length⟩ := by
  rw [trim_same fun c hc => (digit_plain (decimal_chars h c hc)).2]
  refine (limitedFloatParse_iff _ _ _ _).2 ⟨⟨n.1, n.2, fun c hc => ?_, fun c hc => ?_, ?_, h0, rfl, rfl⟩, hm⟩
  · exact List.all_eq_true.1 h c (List.mem_append_left _ hc)
  · exact List.all_eq_true.1 h c (List.mem_append_right _ hc)
  · unfold decimalText
    split
    · rename_i e
      exact .inr ⟨e, by rw [List.append_nil]; rfl⟩
    · exact .inl (by simp)

theorem three_decimals {r g b : Str × Str} (hr : (r.1 ++ r.2).all Char.isDigit = true) (hg : (g.1 ++ g.2).all Char.isDigit = true)
    (hb : (b.1 ++ b.2).all Char.isDigit = true) (r0 : r.1 ++ r.2 ≠ []) (g0 : g.1 ++ g.2 ≠ []) (b0 : b.1 ++ b.2 ≠ [])
    (rm : digitsValue (r.1 ++ r.2) < 2 ^ 64) (gm : digitsValue (g.1 ++ g.2) < 2 ^ 64) (bm : digitsValue (b.1 ++ b.2) < 2 ^ 64) :
    threeNumbers (decimalText r ++ ',' :: (decimalText g ++ ',' :: decimalText b)) =
      some ((digitsValue (r.1 ++ r.2) : Rat) / (10 ^ r.2.length : Nat), (digitsValue (g.1 ++ g.2) : Rat) / (10 ^ g.2.length : Nat),
        (digitsValue (b.1 ++ b.2) : Rat) / (10 ^ b.2.length : Nat)) := by
  unfold threeNumbers
  rw [split_three (fun c hc => (digit_plain (decimal_chars hr c hc)).1) (fun c hc => (digit_plain (decimal_chars hg c hc)).1)
    fun c hc => (digit_plain (decimal_chars hb c hc)).1]
  simp only [decimal_parse r0 hr rm, decimal_parse g0 hg gm, decimal_parse b0 hb bm, Dec.toRat]
  simp only [Bool.false_eq_true, if_false, Rat.one_mul]

/-- Rounding down -/
theorem floor_div (m k : Nat) (hk : 0 < k) : ((m : Rat) / (k : Nat)).floor.toNat = m / k := by
  have hk' : (0 : Rat) < (k : Rat) := by exact_mod_cast hk
  have e : ((m : Rat) / (k : Nat)).floor = ((m / k : Nat) : Int) := by
    apply Int.le_antisymm
    · refine Int.lt_add_one_iff.1 (Rat.floor_lt_iff.2 ?_)
      rw [Rat.div_lt_iff hk']
      have : m < (m / k + 1) * k := by
        have := Nat.div_add_mod m k
        have := Nat.mod_lt m hk
        rw [Nat.add_mul, Nat.mul_comm (m / k)]; omega
      exact_mod_cast this
    · refine Rat.le_floor_iff.2 ?_
      refine Rat.not_lt.1 fun h => ?_
      rw [Rat.div_lt_iff hk'] at h
      have : m / k * k ≤ m := Nat.div_mul_le_self m k
      have h : m < m / k * k := by exact_mod_cast h
      omega
  rw [e]
  rfl

theorem level_whole (m : Nat) (h : m ≤ 255) : ratToU8 ((m : Rat) / ((10 ^ 0 : Nat) : Rat)) = UInt8.ofNat m := by
  unfold ratToU8
  rw [floor_div m _ (by decide), Nat.pow_zero, Nat.div_one, Nat.min_eq_right h]

theorem level_part (m k : Nat) (hk : 0 < k) (h : m ≤ k) :
    ratToU8 ((m : Rat) / (k : Nat) * 255 + 1 / 2) = UInt8.ofNat ((2 * 255 * m + k) / (2 * k)) := by
  have hk' : ((k : Nat) : Rat) ≠ 0 := by
    intro e
    have : k = 0 := by exact_mod_cast e
    omega
  have e : (m : Rat) / (k : Nat) * 255 + 1 / 2 = ((2 * 255 * m + k : Nat) : Rat) / ((2 * k : Nat) : Rat) := by
    push_cast
    grind
  unfold ratToU8
  rw [e, floor_div _ _ (by omega), Nat.min_eq_right]
  have : (2 * 255 * m + k) / (2 * k) < 256 := (Nat.div_lt_iff_lt_mul (by omega)).2 (by omega)
  omega

/-! ### Colours -/

theorem named_levels : (namedColours.all fun row => decide (row.1 ∈ oddColours) || (getColor row.1 == some (rgbOf row.2))) = true := by
  decide +kernel

theorem hex_values : (hexDigits.all fun d => (hexValue d.1 == UInt8.ofNat d.2) && decide (d.2 < 16)) = true := by decide +kernel

theorem hex_pair {d e : Char × Nat} (hd : d ∈ hexDigits) (he : e ∈ hexDigits) :
    hexValue d.1 * 16 + hexValue e.1 = UInt8.ofNat (hexPair d e) := by
  have h1 := List.all_eq_true.1 hex_values d hd
  have h2 := List.all_eq_true.1 hex_values e he
  simp only [Bool.and_eq_true, beq_iff_eq, decide_eq_true_eq] at h1 h2
  rw [h1.1, h2.1]
  unfold hexPair
  rw [Nat.mul_comm]
  simp

theorem digits_small {s : Str} (k : Nat) (hk : digitsValue s ≤ 10 ^ k) (h19 : k ≤ 19) :
    digitsValue s < 2 ^ 64 := by
  have : 10 ^ k ≤ 10 ^ 19 := Nat.pow_le_pow_right (by decide) h19
  omega

theorem part_ok {n : Str × Str} (h : isPart n = true) : n.1 ++ n.2 ≠ [] ∧ (n.1 ++ n.2).all Char.isDigit = true ∧
    digitsValue (n.1 ++ n.2) ≤ 10 ^ n.2.length ∧ digitsValue (n.1 ++ n.2) < 2 ^ 64 := by
  unfold isPart at h
  simp only [Bool.and_eq_true, decide_eq_true_eq, Bool.not_eq_true'] at h
  refine ⟨fun e => ?_, h.1.1.2, h.1.2, digits_small _ h.1.2 h.2⟩
  rw [e] at h
  cases h.1.1.1

theorem level_ok {s : Str} (h : isLevel s = true) : s ≠ [] ∧ s.all Char.isDigit = true ∧ digitsValue s ≤ 255 := by
  unfold isLevel at h
  simp only [Bool.and_eq_true, decide_eq_true_eq, Bool.not_eq_true'] at h
  refine ⟨fun e => ?_, h.1.2, h.2⟩
  rw [e] at h
  cases h.1.1

/-- The colour which the converter takes -/
def colourOf (model : Option Str) (text : Str) : Except LatexErrKind Rgb :=
  match model with
  | none => namedColor text
  | some m => modelColor m text

theorem colour_levels {x : Colour} (h : x.proper = true) : colourOf x.model x.text = .ok (rgbOf x.levels) := by
  cases x with
  | named row =>
    unfold Colour.proper at h
    simp only [Bool.and_eq_true, decide_eq_true_eq] at h
    have := List.all_eq_true.1 named_levels row h.1
    simp only [decide_eq_false h.2, Bool.false_or, beq_iff_eq] at this
    show namedColor row.1 = _
    unfold namedColor
    rw [this]
    rfl
  | html r r' g g' b b' =>
    unfold Colour.proper at h
    simp only [List.all_cons, List.all_nil, Bool.and_true, Bool.and_eq_true, decide_eq_true_eq] at h
    obtain ⟨h1, h2, h3, h4, h5, h6⟩ := h
    show modelColor c!"HTML" [r.1, r'.1, g.1, g'.1, b.1, b'.1] = .ok (UInt8.ofNat (hexPair r r'), UInt8.ofNat (hexPair g g'),
      UInt8.ofNat (hexPair b b'))
    rw [← hex_pair h1 h2, ← hex_pair h3 h4, ← hex_pair h5 h6]
    rfl
  | whole r g b =>
    unfold Colour.proper at h
    simp only [Bool.and_eq_true] at h
    obtain ⟨r0, r1, r2⟩ := level_ok h.1.1
    obtain ⟨g0, g1, g2⟩ := level_ok h.1.2
    obtain ⟨b0, b1, b2⟩ := level_ok h.2
    have := three_decimals (r := (r, [])) (g := (g, [])) (b := (b, [])) (by simpa using r1) (by simpa using g1) (by simpa using b1)
      (by simpa using r0) (by simpa using g0) (by simpa using b0) (by simp; omega) (by simp; omega) (by simp; omega)
    simp only [decimalText, if_true, List.append_nil] at this
    show modelColor c!"RGB" (r ++ ',' :: (g ++ ',' :: b)) = _
    have e : colorOfModel c!"RGB" (r ++ ',' :: (g ++ ',' :: b)) = some (some (rgbOf (Colour.whole r g b).levels)) := by
      unfold colorOfModel
      rw [if_neg (by decide), if_pos rfl, this]
      simp only [Option.map_some, List.length_nil, level_whole _ r2, level_whole _ g2, level_whole _ b2]
      rfl
    unfold modelColor
    rw [e]
  | parts r g b =>
    unfold Colour.proper at h
    simp only [Bool.and_eq_true] at h
    obtain ⟨r0, r1, r2, r3⟩ := part_ok h.1.1
    obtain ⟨g0, g1, g2, g3⟩ := part_ok h.1.2
    obtain ⟨b0, b1, b2, b3⟩ := part_ok h.2
    have := three_decimals r1 g1 b1 r0 g0 b0 r3 g3 b3
    show modelColor c!"rgb" (decimalText r ++ ',' :: (decimalText g ++ ',' :: decimalText b)) = _
    have e : colorOfModel c!"rgb" (decimalText r ++ ',' :: (decimalText g ++ ',' :: decimalText b)) =
        some (some (rgbOf (Colour.parts r g b).levels)) := by
      unfold colorOfModel
      rw [if_pos rfl, this]
      simp only [Option.map_some, level_part _ _ (Nat.pow_pos (by decide : 0 < 10)) r2,
        level_part _ _ (Nat.pow_pos (by decide : 0 < 10)) g2, level_part _ _ (Nat.pow_pos (by decide : 0 < 10)) b2]
      rfl
    unfold modelColor
    rw [e]

/-! ### What is no colour -/

theorem colour_names (s : Str) : s ∈ colourNames ↔ (getColor s).isSome = true := by
  have h : colourNames = colors.map (·.1) := by decide +kernel
  rw [h]
  unfold getColor
  generalize colors = l
  induction l with
  | nil => exact ⟨nofun, nofun⟩
  | cons row l ih =>
    rw [List.map_cons, List.mem_cons, List.lookup_cons]
    cases h : s == row.1
    · have : s ≠ row.1 := fun e => by rw [e, beq_self_eq_true] at h; cases h
      exact ⟨fun e => ih.1 (e.resolve_left this), fun e => .inr (ih.2 e)⟩
    · simp [eq_of_beq h]

theorem split_count (s : Str) : (splitOn ',' s).length = s.count ',' + 1 := by
  induction s with
  | nil => rfl
  | cons c s ih =>
    rw [splitOn]
    split
    · rename_i h
      rw [h, List.length_cons, ih, List.count_cons_self]
    · rename_i h
      rw [List.count_cons_of_ne h, ← ih]
      cases hs : splitOn ',' s with
      | nil => rw [hs] at ih; cases ih
      | cons => rfl

theorem few_numbers {s : Str} (h : s.count ',' < 2) : threeNumbers s = none := by
  have hl := split_count s
  unfold threeNumbers
  split
  · rename_i heq
    rw [heq] at hl
    simp only [List.length_cons] at hl
    omega
  · rfl

theorem not_number {x : Str} (hx : ∀ c ∈ x, isAsciiWs c = false) (h : ¬ ∃ neg m k, IsDecimal x neg m k) :
    limitedFloatParse (trimAscii x) = none := by
  rw [trim_same hx]
  cases hp : limitedFloatParse x with
  | none => rfl
  | some d =>
    obtain ⟨neg, m, k⟩ := d
    exact (h ⟨neg, m, k, ((limitedFloatParse_iff _ _ _ _).1 hp).1⟩).elim

theorem no_colour {model : Option Str} {s what : Str} (h : NoColour model s what) (hs : ∀ c ∈ s, isAsciiWs c = false) :
    colourOf model s = .error (.unknownColor what) := by
  have numbers : ∀ {m t : Str}, m ∈ [c!"rgb", c!"RGB"] → threeNumbers t = none → colorOfModel m t = some none := by
    intro m t hm ht
    simp only [List.mem_cons, List.not_mem_nil, or_false] at hm
    rcases hm with rfl | rfl
    · unfold colorOfModel
      rw [if_pos rfl, ht]
      rfl
    · unfold colorOfModel
      rw [if_neg (by decide), if_pos rfl, ht]
      rfl
  cases h with
  | name h =>
    show namedColor s = _
    unfold namedColor
    cases hg : getColor s with
    | none => rfl
    | some c => exact (h ((colour_names s).2 (by rw [hg]; rfl))).elim
  | model h =>
    simp only [List.mem_cons, List.not_mem_nil, or_false, not_or] at h
    show modelColor what s = _
    unfold modelColor colorOfModel
    rw [if_neg h.1, if_neg h.2.1, if_neg h.2.2]
  | digits h =>
    show modelColor c!"HTML" s = _
    have : colorOfModel c!"HTML" s = some none := by
      unfold colorOfModel
      rw [if_neg (by decide), if_neg (by decide), if_pos rfl]
      split
      · exact (h rfl).elim
      · rfl
    unfold modelColor
    rw [this]
  | few hm h =>
    show modelColor _ s = _
    unfold modelColor
    rw [numbers hm (few_numbers h)]
  | @number m r g b x hm hr hg hb hx h =>
    have ne : ∀ {t : Str}, ',' ∉ t → ∀ c ∈ t, c ≠ ',' := fun h c hc e => h (e ▸ hc)
    have hx' : limitedFloatParse (trimAscii x) = none := by
      refine not_number (fun c hc => hs c ?_) h
      simp only [List.mem_cons, List.not_mem_nil, or_false] at hx
      rcases hx with rfl | rfl | rfl <;> simp [hc]
    show modelColor m _ = _
    unfold modelColor
    rw [numbers hm]
    unfold threeNumbers
    rw [split_three (ne hr) (ne hg) (ne hb)]
    simp only [List.mem_cons, List.not_mem_nil, or_false] at hx
    simp only
    split
    · rename_i h1 h2 h3
      rcases hx with rfl | rfl | rfl
      · rw [hx'] at h1; cases h1
      · rw [hx'] at h2; cases h2
      · rw [hx'] at h3; cases h3
    · rfl

/-! ### CSS -/

theorem css_bytes : ((List.range 256).all fun n => u8Hex (UInt8.ofNat n) == cssByte n) = true := by decide +kernel

theorem css_byte {n : Nat} (h : n ≤ 255) : u8Hex (UInt8.ofNat n) = cssByte n :=
  eq_of_beq (List.all_eq_true.1 css_bytes n (List.mem_range.2 (by omega)))

theorem named_small : (namedColours.all fun row => decide (row.2.red ≤ 255 ∧ row.2.green ≤ 255 ∧ row.2.blue ≤ 255)) = true := by decide

theorem part_small {n : Str × Str} (h : isPart n = true) : partLevel n ≤ 255 := by
  obtain ⟨-, -, h, -⟩ := part_ok h
  have hk : 0 < 10 ^ n.2.length := Nat.pow_pos (by decide)
  unfold partLevel
  have : (2 * 255 * digitsValue (n.1 ++ n.2) + 10 ^ n.2.length) / (2 * 10 ^ n.2.length) < 256 :=
    (Nat.div_lt_iff_lt_mul (by omega)).2 (by omega)
  omega

theorem levels_small {x : Colour} (h : x.proper = true) : x.levels.red ≤ 255 ∧ x.levels.green ≤ 255 ∧ x.levels.blue ≤ 255 := by
  cases x with
  | named row =>
    unfold Colour.proper at h
    simp only [Bool.and_eq_true, decide_eq_true_eq] at h
    exact of_decide_eq_true (List.all_eq_true.1 named_small row h.1)
  | html r r' g g' b b' =>
    unfold Colour.proper at h
    simp only [List.all_cons, List.all_nil, Bool.and_true, Bool.and_eq_true, decide_eq_true_eq] at h
    have key : ∀ d ∈ hexDigits, d.2 < 16 := by decide
    obtain ⟨h1, h2, h3, h4, h5, h6⟩ := h
    have := key _ h1
    have := key _ h2
    have := key _ h3
    have := key _ h4
    have := key _ h5
    have := key _ h6
    simp only [Colour.levels, hexPair]
    omega
  | whole r g b =>
    unfold Colour.proper at h
    simp only [Bool.and_eq_true] at h
    exact ⟨(level_ok h.1.1).2.2, (level_ok h.1.2).2.2, (level_ok h.2).2.2⟩
  | parts r g b =>
    unfold Colour.proper at h
    simp only [Bool.and_eq_true] at h
    exact ⟨part_small h.1.1, part_small h.1.2, part_small h.2⟩

theorem colour_css {x : Colour} (h : x.proper = true) : rowCss { color := some (rgbOf x.levels) } = x.levels.css := by
  obtain ⟨h1, h2, h3⟩ := levels_small h
  unfold rowCss rgbOf Levels.css
  simp only [css_byte h1, css_byte h2, css_byte h3]
  simp

end Verif

import Verif.Spec.Typed
/-! The tables of the converter for characters and commands compared with those of unicode-math. -/
namespace Verif
open Model Spec

/-- The token stands for the symbol. -/
def stands (t : Token) (x : Symbol) : Bool :=
  (match atomOf t with | some a => decide (a = x.type) | none => false) &&
  (match glyph t with | some c => decide (c = x.char) | none => false)

theorem stands_atom {t : Token} {x : Symbol} (h : stands t x = true) : atomOf t = some x.type := by
  unfold stands at h
  rw [Bool.and_eq_true] at h
  have h := h.1
  split at h
  · rename_i heq; rw [heq, of_decide_eq_true h]
  · cases h

theorem stands_glyph {t : Token} {x : Symbol} (h : stands t x = true) : glyph t = some x.char := by
  unfold stands at h
  rw [Bool.and_eq_true] at h
  have h := h.2
  split at h
  · rename_i heq; rw [heq, of_decide_eq_true h]
  · cases h

/-! ### Characters -/

/-- All the characters of ranges -/
def rangeChars (rs : List CharRange) : List Nat := rs.flatMap fun r => (List.range (r.2 + 1 - r.1)).map (r.1 + ·)

theorem within_mem {n : Nat} {rs : List CharRange} (h : within n rs = true) : n ∈ rangeChars rs := by
  unfold within at h
  obtain ⟨r, hr, h⟩ := List.any_eq_true.1 h
  rw [Bool.and_eq_true, Nat.ble_eq, Nat.ble_eq] at h
  exact List.mem_flatMap.2 ⟨r, hr, List.mem_map.2 ⟨n - r.1, List.mem_range.2 (by omega), by omega⟩⟩

/-- The characters in the table of the converter -/
def operatorKeys : List Nat := unicodeOperators.map fun p => p.1.toNat

set_option maxRecDepth 100000 in
theorem table_stands : (unicodeOperators.all fun p => !isSymbol p.1 || stands (.mathOrTextMode p.2 p.1) (typedSymbol p.1)) =
    true := by decide +kernel

set_option maxRecDepth 100000 in
theorem ascii_stands : ((List.range 128).all fun n => !isSymbol (Char.ofNat n) ||
    stands (Lexer.charToken (Char.ofNat n)) (typedSymbol (Char.ofNat n))) = true := by decide +kernel

set_option maxRecDepth 100000 in
theorem listed_known : ((rangeChars relChars ++ rangeChars binChars ++ rangeChars openingChars ++ rangeChars closingChars ++
      rangeChars opChars ++ rangeChars punctChars).all fun n =>
    Nat.blt n 128 || within n oddChars || operatorKeys.any (Nat.beq n)) = true := by decide +kernel

/-! ### Commands -/

/-- A row of the table is also one of the converter, with the same symbol. -/
def rowStands (r : SymbolRow) : Bool :=
  !r.name.isEmpty && r.name.all isAsciiAlpha && decide (r.name ≠ c!"begin") && decide (r.name ≠ c!"end") &&
  (decide (r.name ∈ oddNames) ||
    ((unreliableCmds.lookup r.name).isNone && (substitutedCmds.lookup r.name).isNone &&
      match commands.lookup r.name with
      | some t => stands t r.symbol && !(t matches .digit _)
      | none => false))

set_option maxRecDepth 100000 in
theorem rows_stand0 : symbolRows0.all rowStands = true := by decide +kernel
set_option maxRecDepth 100000 in
theorem rows_stand1 : symbolRows1.all rowStands = true := by decide +kernel
set_option maxRecDepth 100000 in
theorem rows_stand2 : symbolRows2.all rowStands = true := by decide +kernel
set_option maxRecDepth 100000 in
theorem rows_stand3 : symbolRows3.all rowStands = true := by decide +kernel

end Verif

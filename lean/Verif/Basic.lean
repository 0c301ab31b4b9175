/-!
Shared vocabulary of the model.

Rust `&str`/`String` values are modelled as lists of Unicode scalar values (`Char` is exactly
Rust's `char`).  Byte offsets are sums of `Char.utf8Size`.
-/

namespace Verif

/-- Text. Models `&str` and `String`. -/
abbrev Str := List Char

/-- `c!"abc"` is the list literal `['a', 'b', 'c']`. -/
macro:max "c!" s:str : term => do
  let cs := s.getString.toList.toArray.map (fun c => Lean.Syntax.mkCharLit c)
  `([ $cs,* ])

/-- Byte length of a text in UTF-8 (`str::len`). -/
def blen : Str → Nat
  | [] => 0
  | c :: cs => c.utf8Size + blen cs

@[simp] theorem blen_nil : blen [] = 0 := rfl
@[simp] theorem blen_cons (c : Char) (cs : Str) : blen (c :: cs) = c.utf8Size + blen cs := rfl

theorem blen_append (a b : Str) : blen (a ++ b) = blen a + blen b := by
  induction a with
  | nil => simp
  | cons c cs ih => simp [ih]; omega

theorem utf8Size_pos (c : Char) : 0 < c.utf8Size := Char.utf8Size_pos c

theorem blen_ge_length (a : Str) : a.length ≤ blen a := by
  induction a with
  | nil => simp
  | cons c cs ih => have := utf8Size_pos c; simp; omega

/-- `str::split_at_checked`: split at a byte offset; `none` if the offset is not a character
boundary of the text (or lies beyond its end). -/
def splitAtByte : Str → Nat → Option (Str × Str)
  | s, 0 => some ([], s)
  | [], _ + 1 => none
  | c :: cs, n + 1 =>
    if c.utf8Size ≤ n + 1 then
      (splitAtByte cs (n + 1 - c.utf8Size)).map (fun p => (c :: p.1, p.2))
    else none

theorem splitAtByte_some {s : Str} {n : Nat} {a b : Str} (h : splitAtByte s n = some (a, b)) :
    s = a ++ b ∧ blen a = n := by
  induction s generalizing n a b with
  | nil =>
    cases n with
    | zero => simp [splitAtByte] at h; obtain ⟨rfl, rfl⟩ := h; simp
    | succ n => simp [splitAtByte] at h
  | cons c cs ih =>
    cases n with
    | zero => simp [splitAtByte] at h; obtain ⟨rfl, rfl⟩ := h; simp
    | succ n =>
      simp only [splitAtByte] at h
      split at h
      · rename_i hle
        simp only [Option.map_eq_some_iff] at h
        obtain ⟨⟨x, y⟩, hx, hy⟩ := h
        simp only [Prod.mk.injEq] at hy
        obtain ⟨rfl, rfl⟩ := hy
        have := ih hx
        simp [this.1, this.2]; omega
      · simp at h

theorem splitAtByte_append (a b : Str) : splitAtByte (a ++ b) (blen a) = some (a, b) := by
  induction a with
  | nil => cases b <;> simp [splitAtByte]
  | cons c cs ih =>
    have := utf8Size_pos c
    obtain ⟨n, hn⟩ : ∃ n, blen (c :: cs) = n + 1 := ⟨blen (c :: cs) - 1, by simp; omega⟩
    rw [hn]
    simp only [List.cons_append, splitAtByte]
    simp only [blen_cons] at hn
    rw [if_pos (by omega)]
    have : n + 1 - c.utf8Size = blen cs := by omega
    rw [this, ih]; rfl

/-- ASCII whitespace as in Rust's `char::is_ascii_whitespace`: space, tab, LF, form feed, CR. -/
def isAsciiWs (c : Char) : Bool :=
  c == ' ' || c == '\t' || c == '\n' || c == '\x0c' || c == '\r'

/-- `char::is_ascii_alphabetic`. -/
def isAsciiAlpha (c : Char) : Bool :=
  ('a' ≤ c && c ≤ 'z') || ('A' ≤ c && c ≤ 'Z')

/-- `char::is_ascii_digit`. -/
def isAsciiDigit (c : Char) : Bool := '0' ≤ c && c ≤ '9'

/-- `char::is_ascii`. -/
def isAscii (c : Char) : Bool := c.toNat < 128

end Verif

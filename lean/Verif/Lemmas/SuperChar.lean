import Verif.Model.SuperChar
import Verif.Spec.Symbols
/-! Helper lemmas about the bit encoding of symbols and the precomposed table. -/
namespace Verif
open Model Spec

/-! ### Bits -/

/-- A word with the given fields. -/
def pack (n v : Nat) (s l : Bool) : BitVec 32 :=
  BitVec.ofNat 32 n ||| (BitVec.ofNat 32 v <<< 28) ||| (if s then solidusBit else 0#32)
    ||| (if l then verticalLineBit else 0#32)

theorem charMask_bit : ∀ i < 32, charMask.getLsbD i = decide (i < 21) := by decide
theorem vsMask_bit : ∀ i < 32, vsMask.getLsbD i = decide (28 ≤ i) := by decide
theorem solidus_bit : ∀ i < 32, solidusBit.getLsbD i = decide (i = 27) := by decide
theorem vline_bit : ∀ i < 32, verticalLineBit.getLsbD i = decide (i = 26) := by decide

theorem pack_bit {n v : Nat} {s l : Bool} (hn : n < 2 ^ 21) (i : Nat) (hi : i < 32) :
    (pack n v s l).getLsbD i =
      if i < 21 then n.testBit i else if i = 26 then l else if i = 27 then s
      else if 28 ≤ i then v.testBit (i - 28) else false := by
  have hb : ∀ i, 21 ≤ i → n.testBit i = false := fun i h =>
    Nat.testBit_lt_two_pow (Nat.lt_of_lt_of_le hn (Nat.pow_le_pow_right (by omega) h))
  unfold pack
  simp only [BitVec.getLsbD_or, BitVec.getLsbD_ofNat, BitVec.getLsbD_shiftLeft, hi, decide_true,
    Bool.true_and]
  have e1 : (if s = true then solidusBit else 0#32).getLsbD i = (s && decide (i = 27)) := by
    cases s
    · simp
    · simp [solidus_bit i hi]
  have e2 : (if l = true then verticalLineBit else 0#32).getLsbD i = (l && decide (i = 26)) := by
    cases l
    · simp
    · simp [vline_bit i hi]
  rw [e1, e2]
  by_cases h1 : i < 21
  · have : ¬ (28 ≤ i) := by omega
    simp [h1, show i < 28 by omega, show i ≠ 27 by omega, show i ≠ 26 by omega]
  · rw [hb i (by omega)]
    by_cases h2 : i = 26
    · subst h2; simp
    · by_cases h3 : i = 27
      · subst h3; simp
      · by_cases h4 : 28 ≤ i
        · simp [h1, h2, h3, h4, show ¬ i < 28 by omega, show i - 28 < 32 by omega]
        · simp [h1, h2, h3, h4, show i < 28 by omega]

theorem pack_and_charMask {n v : Nat} {s l : Bool} (hn : n < 2 ^ 21) :
    pack n v s l &&& charMask = BitVec.ofNat 32 n := by
  apply BitVec.eq_of_getLsbD_eq
  intro i hi
  have hb : 21 ≤ i → n.testBit i = false := fun h =>
    Nat.testBit_lt_two_pow (Nat.lt_of_lt_of_le hn (Nat.pow_le_pow_right (by omega) h))
  rw [BitVec.getLsbD_and, pack_bit hn i hi, charMask_bit i hi, BitVec.getLsbD_ofNat]
  by_cases h : i < 21
  · simp [h, hi]
  · simp [h, hb (by omega)]

theorem ofNat_toNat_small {n : Nat} (hn : n < 2 ^ 21) : (BitVec.ofNat 32 n).toNat = n := by
  rw [BitVec.toNat_ofNat]; exact Nat.mod_eq_of_lt (by omega)

theorem pack_eq {n v : Nat} {s l : Bool} {w : BitVec 32} (hn : n < 2 ^ 21)
    (h : ∀ i < 32, w.getLsbD i = if i < 21 then n.testBit i else if i = 26 then l
      else if i = 27 then s else if 28 ≤ i then v.testBit (i - 28) else false) :
    w = pack n v s l := by
  apply BitVec.eq_of_getLsbD_eq
  intro i hi
  rw [h i hi, pack_bit hn i hi]

theorem pack_or_charMask {n v : Nat} {s l : Bool} (hn : n < 2 ^ 21) :
    pack n v s l ||| charMask = pack 0x1FFFFF v s l := by
  apply pack_eq (by decide)
  intro i hi
  have hb : i < 21 → Nat.testBit 0x1FFFFF i = true := by
    intro h
    have : ∀ i < 21, Nat.testBit 0x1FFFFF i = true := by decide
    exact this i h
  rw [BitVec.getLsbD_or, pack_bit hn i hi, charMask_bit i hi]
  by_cases h : i < 21
  · simp [h, hb h]
  · simp [h]

theorem pack_or_solidus {n v : Nat} {s l : Bool} (hn : n < 2 ^ 21) :
    pack n v s l ||| solidusBit = pack n v true l := by
  apply pack_eq hn
  intro i hi
  rw [BitVec.getLsbD_or, pack_bit hn i hi, solidus_bit i hi]
  by_cases h : i = 27
  · subst h; simp
  · simp [h]

theorem pack_or_vline {n v : Nat} {s l : Bool} (hn : n < 2 ^ 21) :
    pack n v s l ||| verticalLineBit = pack n v s true := by
  apply pack_eq hn
  intro i hi
  rw [BitVec.getLsbD_or, pack_bit hn i hi, vline_bit i hi]
  by_cases h : i = 26
  · subst h; simp
  · simp [h]

theorem pack_clear_solidus {n v : Nat} {s l : Bool} (hn : n < 2 ^ 21) :
    pack n v s l &&& ~~~solidusBit = pack n v false l := by
  apply pack_eq hn
  intro i hi
  rw [BitVec.getLsbD_and, pack_bit hn i hi, BitVec.getLsbD_not, solidus_bit i hi]
  by_cases h : i = 27
  · subst h; simp
  · simp [h, hi]

theorem pack_clear_vline {n v : Nat} {s l : Bool} (hn : n < 2 ^ 21) :
    pack n v s l &&& ~~~verticalLineBit = pack n v s false := by
  apply pack_eq hn
  intro i hi
  rw [BitVec.getLsbD_and, pack_bit hn i hi, BitVec.getLsbD_not, vline_bit i hi]
  by_cases h : i = 26
  · subst h; simp
  · simp [h, hi]

theorem pack_clear_vs {n v : Nat} {s l : Bool} (hn : n < 2 ^ 21) :
    pack n v s l &&& ~~~vsMask = pack n 0 s l := by
  apply pack_eq hn
  intro i hi
  rw [BitVec.getLsbD_and, pack_bit hn i hi, BitVec.getLsbD_not, vsMask_bit i hi]
  by_cases h : 28 ≤ i
  · simp [h, show ¬ i < 21 by omega, show i ≠ 26 by omega, show i ≠ 27 by omega]
  · simp [h, hi]

theorem pack_replace {n m v : Nat} {s l : Bool} (hn : n < 2 ^ 21) (hm : m < 2 ^ 21) :
    (pack n v s l &&& ~~~charMask) ||| BitVec.ofNat 32 m = pack m v s l := by
  apply pack_eq hm
  intro i hi
  have hb : 21 ≤ i → m.testBit i = false := fun h =>
    Nat.testBit_lt_two_pow (Nat.lt_of_lt_of_le hm (Nat.pow_le_pow_right (by omega) h))
  rw [BitVec.getLsbD_or, BitVec.getLsbD_and, pack_bit hn i hi, BitVec.getLsbD_not,
    charMask_bit i hi, BitVec.getLsbD_ofNat]
  by_cases h : i < 21
  · simp [h, hi]
  · simp [h, hi, hb (by omega)]

theorem pack_and_solidus {n v : Nat} {s l : Bool} (hn : n < 2 ^ 21) :
    (pack n v s l &&& solidusBit ≠ 0#32) ↔ s = true := by
  cases s with
  | true =>
    simp only [ne_eq, iff_true]
    intro h
    have := congrArg (fun w => BitVec.getLsbD w 27) h
    simp only [BitVec.getLsbD_and, pack_bit hn 27 (by omega), solidus_bit 27 (by omega)] at this
    simp at this
  | false =>
    simp only [ne_eq, Bool.false_eq_true, iff_false, Decidable.not_not]
    apply BitVec.eq_of_getLsbD_eq
    intro i hi
    rw [BitVec.getLsbD_and, pack_bit hn i hi, solidus_bit i hi]
    by_cases h : i = 27
    · subst h; simp
    · simp [h]

theorem pack_and_vline {n v : Nat} {s l : Bool} (hn : n < 2 ^ 21) :
    (pack n v s l &&& verticalLineBit ≠ 0#32) ↔ l = true := by
  cases l with
  | true =>
    simp only [ne_eq, iff_true]
    intro h
    have := congrArg (fun w => BitVec.getLsbD w 26) h
    simp only [BitVec.getLsbD_and, pack_bit hn 26 (by omega), vline_bit 26 (by omega)] at this
    simp at this
  | false =>
    simp only [ne_eq, Bool.false_eq_true, iff_false, Decidable.not_not]
    apply BitVec.eq_of_getLsbD_eq
    intro i hi
    rw [BitVec.getLsbD_and, pack_bit hn i hi, vline_bit i hi]
    by_cases h : i = 26
    · subst h; simp
    · simp [h]

theorem pack_shift {n v : Nat} {s l : Bool} (hn : n < 2 ^ 21) (hv : v < 16) :
    (pack n v s l >>> 28).toNat = v := by
  have : pack n v s l >>> 28 = BitVec.ofNat 32 v := by
    apply BitVec.eq_of_getLsbD_eq
    intro i hi
    rw [BitVec.getLsbD_ushiftRight, BitVec.getLsbD_ofNat]
    by_cases h : i < 4
    · rw [pack_bit hn (28 + i) (by omega)]
      simp [show ¬ 28 + i < 21 by omega, show 28 + i ≠ 26 by omega, show 28 + i ≠ 27 by omega, hi]
    · rw [BitVec.getLsbD_of_ge _ _ (by omega)]
      have : v.testBit i = false :=
        Nat.testBit_lt_two_pow (Nat.lt_of_lt_of_le hv (by
          have : 2 ^ 4 ≤ 2 ^ i := Nat.pow_le_pow_right (by omega) (by omega)
          omega))
      simp [this]
  rw [this, BitVec.toNat_ofNat]
  exact Nat.mod_eq_of_lt (by omega)

theorem pack_hasVs {n v : Nat} {s l : Bool} (hn : n < 2 ^ 21) (hv : v < 16) :
    SuperChar.hasVs (pack n v s l) = decide (v ≠ 0) := by
  unfold SuperChar.hasVs
  by_cases h0 : v = 0
  · subst h0
    have : pack n 0 s l &&& vsMask = 0#32 := by
      apply BitVec.eq_of_getLsbD_eq
      intro i hi
      rw [BitVec.getLsbD_and, pack_bit hn i hi, vsMask_bit i hi]
      by_cases h : 28 ≤ i
      · simp [h, show ¬ i < 21 by omega, show i ≠ 26 by omega, show i ≠ 27 by omega]
      · simp [h]
    simp [this]
  · simp only [ne_eq, h0, not_false_eq_true, decide_true, bne_iff_ne]
    intro h
    apply h0
    apply Nat.eq_of_testBit_eq
    intro i
    rw [Nat.zero_testBit]
    by_cases hi : i < 4
    · have := congrArg (fun w => BitVec.getLsbD w (28 + i)) h
      simp only [BitVec.getLsbD_and, pack_bit hn (28 + i) (by omega),
        vsMask_bit (28 + i) (by omega), BitVec.getLsbD_zero] at this
      simpa [show ¬ 28 + i < 21 by omega, show 28 + i ≠ 26 by omega,
        show 28 + i ≠ 27 by omega] using this
    · exact Nat.testBit_lt_two_pow (Nat.lt_of_lt_of_le hv (by
        have : 2 ^ 4 ≤ 2 ^ i := Nat.pow_le_pow_right (by omega) (by omega)
        omega))

theorem pack_vs_zero {n : Nat} {s l : Bool} (hn : n < 2 ^ 21) :
    SuperChar.vs (pack n 0 s l) = none := by
  unfold SuperChar.vs; rw [pack_shift hn (by omega)]

theorem pack_vs_succ {n : Nat} {s l : Bool} (hn : n < 2 ^ 21) (k : Fin 15) :
    SuperChar.vs (pack n (k.val + 1) s l) = some k := by
  unfold SuperChar.vs; rw [pack_shift hn (by omega)]; simp

theorem char_lt (c : Char) : c.toNat < 2 ^ 21 ∧ c.toNat ≠ 0x1FFFFF := by
  have := c.valid
  have e : c.toNat = c.val.toNat := rfl
  rw [e]
  unfold UInt32.isValidChar Nat.isValidChar at this
  omega

/-! ### The concrete values -/

/-- The word of a symbol. -/
def symWord (base : Char) (v : Option (Fin 15)) (s l : Bool) : SuperChar :=
  pack base.toNat (match v with | none => 0 | some k => k.val + 1) s l

theorem fromChar_eq (c : Char) : SuperChar.fromChar c = symWord c none false false := by
  simp [SuperChar.fromChar, symWord, pack]

theorem fromCharWithVs_eq (c : Char) (v : Fin 15) :
    SuperChar.fromCharWithVs c v = symWord c (some v) false false := by
  simp [SuperChar.fromCharWithVs, symWord, pack]

theorem symWord_baseChar (c : Char) (v : Option (Fin 15)) (s l : Bool) :
    SuperChar.baseChar (symWord c v s l) = c := by
  unfold SuperChar.baseChar symWord
  rw [pack_and_charMask (char_lt c).1, ofNat_toNat_small (char_lt c).1, Char.ofNat_toNat]

theorem symWord_hasVs (c : Char) (v : Option (Fin 15)) (s l : Bool) :
    SuperChar.hasVs (symWord c v s l) = v.isSome := by
  unfold symWord
  rw [pack_hasVs (char_lt c).1 (by split <;> omega)]
  cases v <;> simp

theorem symWord_solidus (c : Char) (v : Option (Fin 15)) (s l : Bool) :
    SuperChar.withOverlay (symWord c v s l) .solidus =
      match v, getPrecomposed c with
      | none, some p => symWord p v s l
      | _, _ => symWord c v true l := by
  unfold SuperChar.withOverlay
  simp only [symWord_hasVs, symWord_baseChar]
  cases v with
  | none =>
    cases h : getPrecomposed c with
    | none => simp only [Option.isSome_none, Bool.false_eq_true, ↓reduceIte]
              exact pack_or_solidus (char_lt c).1
    | some p =>
      simp only [Option.isSome_none, Bool.false_eq_true, ↓reduceIte]
      exact pack_replace (char_lt c).1 (char_lt p).1
  | some v =>
    simp only [Option.isSome_some, ↓reduceIte]
    exact pack_or_solidus (char_lt c).1

theorem symWord_vline (c : Char) (v : Option (Fin 15)) (s l : Bool) :
    SuperChar.withOverlay (symWord c v s l) .verticalLine = symWord c v s true := by
  unfold SuperChar.withOverlay
  exact pack_or_vline (char_lt c).1

theorem next_done {v : Nat} {l : Bool} (s : Bool) :
    SuperChar.nextChar (pack 0x1FFFFF v s l) =
      match SuperChar.vs (pack 0x1FFFFF v s l) with
      | some k => some (k.toChar, pack 0x1FFFFF 0 s l)
      | none => if s then some ('̸', pack 0x1FFFFF v false l)
        else if l then some ('⃒', pack 0x1FFFFF v s false) else none := by
  have h : (0x1FFFFF : Nat) < 2 ^ 21 := by decide
  unfold SuperChar.nextChar
  simp only [pack_and_charMask h, pack_clear_solidus h, pack_clear_vline h, pack_clear_vs h,
    pack_and_solidus h, pack_and_vline h]
  rw [if_neg (by decide)]
  rfl

/-- The text of a symbol word. -/
theorem symWord_text (c : Char) (v : Option (Fin 15)) (s l : Bool) :
    SuperChar.text (symWord c v s l) =
      c :: ((v.map VariationSelector.toChar).toList ++ (if s then ['̸'] else []) ++
        (if l then ['⃒'] else [])) := by
  have h : (0x1FFFFF : Nat) < 2 ^ 21 := by decide
  have hc := char_lt c
  have h1 : ∀ k s l, SuperChar.nextChar (pack c.toNat k s l) = some (c, pack 0x1FFFFF k s l) := by
    intro k s l
    unfold SuperChar.nextChar
    simp only [pack_and_charMask hc.1, pack_or_charMask hc.1]
    rw [if_pos]
    · rw [ofNat_toNat_small hc.1, Char.ofNat_toNat]
    · intro e
      have := congrArg BitVec.toNat e
      rw [ofNat_toNat_small hc.1] at this
      exact hc.2 this
  unfold SuperChar.text symWord
  rw [SuperChar.collect, h1]
  simp only
  cases v with
  | none =>
    cases s <;> cases l <;>
      simp [SuperChar.collect, next_done, pack_vs_zero h]
  | some k =>
    cases s <;> cases l <;>
      simp [SuperChar.collect, next_done, pack_vs_zero h, pack_vs_succ h k]

theorem symWord_tryAsChar (c : Char) (v : Option (Fin 15)) (s l : Bool) :
    SuperChar.tryAsChar (symWord c v s l) =
      if v = none ∧ s = false ∧ l = false then some c else none := by
  unfold SuperChar.tryAsChar
  rw [symWord_baseChar]
  have hc := char_lt c
  by_cases h : v = none ∧ s = false ∧ l = false
  · obtain ⟨rfl, rfl, rfl⟩ := h
    have : symWord c none false false &&& charMask = symWord c none false false := by
      unfold symWord
      rw [pack_and_charMask hc.1]
      simp [pack]
    simp [this]
  · rw [if_neg h, if_neg]
    simp only [beq_iff_eq]
    intro e
    apply h
    have e1 : symWord c v s l &&& charMask = symWord c none false false :=
      (pack_and_charMask hc.1).trans (fromChar_eq c)
    have := congrArg SuperChar.text (e1.symm.trans e)
    rw [symWord_text, symWord_text] at this
    cases v <;> cases s <;> cases l <;> simp at this ⊢

/-! ### The table in Eytzinger layout -/

/-- In-order listing of the subtree at index `k`. -/
def inorder (table : Array (Nat × Nat)) : Nat → Nat → List (Nat × Nat)
  | 0, _ => []
  | fuel + 1, k =>
    if k < table.size then
      inorder table fuel (2 * k) ++ eytzSlot table k :: inorder table fuel (2 * k + 1)
    else []

theorem lookup_none_of_ne {xs : List (Nat × Nat)} {b : Nat} (h : ∀ p ∈ xs, p.1 ≠ b) :
    xs.lookup b = none := by
  induction xs with
  | nil => rfl
  | cons x xs ih =>
    have h1 : (b == x.1) = false := by
      have := h x (by simp); simp; exact fun e => this e.symm
    rw [List.lookup, h1]
    exact ih (fun p hp => h p (by simp [hp]))

theorem lookup_append (xs ys : List (Nat × Nat)) (b : Nat) :
    (xs ++ ys).lookup b = (xs.lookup b).or (ys.lookup b) := by
  induction xs with
  | nil => rfl
  | cons x xs ih =>
    simp only [List.cons_append, List.lookup]
    split
    · rfl
    · exact ih

theorem eytzSearch_spec (table : Array (Nat × Nat)) (b : Nat) (fuel k : Nat) (hk : 1 ≤ k)
    (hf : table.size - k ≤ fuel)
    (hs : (inorder table fuel k).Pairwise (fun p q => p.1 < q.1)) :
    let r := eytzSearch table b fuel k
    1 ≤ r ∧ (if r ≥ table.size then none else if (eytzSlot table r).1 ≠ b then none
      else some (eytzSlot table r).2) = (inorder table fuel k).lookup b := by
  induction fuel generalizing k with
  | zero =>
    have : k ≥ table.size := by omega
    simp [eytzSearch, inorder, this, hk]
  | succ fuel ih =>
    unfold eytzSearch
    by_cases hlt : k < table.size
    · unfold inorder at hs ⊢
      rw [if_pos hlt] at hs
      simp only [if_pos hlt]
      rw [List.pairwise_append, List.pairwise_cons] at hs
      obtain ⟨hsl, ⟨hkr, hsr⟩, hlk⟩ := hs
      rw [lookup_append, List.lookup]
      have hleft : ∀ p ∈ inorder table fuel (2 * k), p.1 < (eytzSlot table k).1 :=
        fun p hp => hlk p hp _ (by simp)
      split
      · rename_i hkey
        have hne : (b == (eytzSlot table k).1) = false := by simp; omega
        rw [lookup_none_of_ne (fun p hp => by have := hleft p hp; omega), hne]
        exact ih (2 * k + 1) (by omega) (by omega) hsr
      · rename_i hkey
        split
        · rename_i heq
          rw [lookup_none_of_ne (fun p hp => by have := hleft p hp; omega)]
          have : (b == (eytzSlot table k).1) = true := by simp [heq]
          rw [this]
          refine ⟨hk, ?_⟩
          rw [if_neg (by omega), if_neg (by simp [heq])]; rfl
        · rename_i hne
          have hne' : (b == (eytzSlot table k).1) = false := by simp; omega
          rw [hne', lookup_none_of_ne (xs := inorder table fuel (2 * k + 1))
            (fun p hp => by have := hkr p hp; omega), Option.or_none]
          exact ih (2 * k) (by omega) (by omega) hsl
    · unfold inorder
      simp only [if_neg hlt]
      exact ⟨hk, by rw [if_pos (by omega)]; rfl⟩

theorem inorder_table : inorder precomposedEytzinger 89 1 = precomposedSorted := by
  decide +kernel

theorem sorted_table : precomposedSorted.Pairwise (fun p q => p.1 < q.1) := by
  decide +kernel

theorem eytz_size : precomposedEytzinger.size = 89 := by decide +kernel

theorem table_small : ∀ p ∈ precomposedSorted, p.1 ≤ 0xFFFF ∧ p.2.isValidChar ∧
    precomposedSorted.lookup p.2 = some p.2 := by
  decide +kernel

theorem lookup_mem {xs : List (Nat × Nat)} {b v : Nat} (h : xs.lookup b = some v) :
    (b, v) ∈ xs := by
  obtain ⟨l1, l2, h1, _⟩ := List.lookup_eq_some_iff.mp h
  rw [h1]; simp

theorem getPrecomposed_eq (c : Char) :
    getPrecomposed c = (precomposedSorted.lookup c.toNat).map Char.ofNat := by
  unfold getPrecomposed
  split
  · rename_i h
    cases hl : precomposedSorted.lookup c.toNat with
    | none => rfl
    | some v => have := (table_small _ (lookup_mem hl)).1; simp at this; omega
  · have := eytzSearch_spec precomposedEytzinger c.toNat 89 1 (by omega) (by rw [eytz_size]; omega)
      (by rw [inorder_table]; exact sorted_table)
    rw [inorder_table] at this
    simp only [eytz_size] at this ⊢
    obtain ⟨h1, h2⟩ := this
    rw [← h2]
    generalize eytzSearch precomposedEytzinger c.toNat 89 1 = r at h1 ⊢
    have : (r == 0) = false := by simp; omega
    simp only [this, Bool.false_or, decide_eq_true_eq]
    split
    · rfl
    · split <;> rfl

theorem getPrecomposed_idem {c p : Char} (h : getPrecomposed c = some p) :
    getPrecomposed p = some p := by
  rw [getPrecomposed_eq] at h ⊢
  simp only [Option.map_eq_some_iff] at h
  obtain ⟨v, hv, rfl⟩ := h
  obtain ⟨_, hval, hid⟩ := table_small _ (lookup_mem hv)
  have : (Char.ofNat v).toNat = v := by
    simp only at hval
    unfold Char.ofNat
    rw [dif_pos hval]
    simp [Char.ofNatAux, Char.toNat]
  rw [this, hid]; rfl

end Verif

import Verif.Basic
/-! Model of crates/mathml-renderer/src/super_char.rs. A `SuperChar` is 32 bits. -/
namespace Verif.Model

/-- super_char.rs:31 -/
def vsMask : BitVec 32 := 0xF0000000#32
/-- super_char.rs:34 -/
def charMask : BitVec 32 := 0x001FFFFF#32
/-- super_char.rs:37 -/
def solidusBit : BitVec 32 := 0x08000000#32
/-- super_char.rs:40 -/
def verticalLineBit : BitVec 32 := 0x04000000#32

/-- super_char.rs:26-28 -/
abbrev SuperChar := BitVec 32

/-- super_char.rs:44-75: `Vs1 … Vs15`; the discriminant of the model value `i` is `i + 1`. -/
abbrev VariationSelector := Fin 15

/-- super_char.rs:77-82, `char::from_u32(0xFDFF + vs as u32).unwrap()` -/
def VariationSelector.toChar (vs : VariationSelector) : Char := Char.ofNat (0xFDFF + (vs.val + 1))

/-- super_char.rs:86-91 -/
inductive OverlayChar | solidus | verticalLine
  deriving DecidableEq, Repr

/-- super_char.rs:93-100, symbol.rs (U+0338 and U+20D2) -/
def OverlayChar.toChar : OverlayChar → Char
  | .solidus => '\u0338'
  | .verticalLine => '\u20D2'

/-- super_char.rs:107-109 -/
def SuperChar.fromChar (c : Char) : SuperChar := BitVec.ofNat 32 c.toNat

/-- super_char.rs:116-119 (without the debug assertion) -/
def SuperChar.fromCharWithVs (c : Char) (vs : VariationSelector) : SuperChar :=
  BitVec.ofNat 32 c.toNat ||| (BitVec.ofNat 32 (vs.val + 1) <<< 28)

/-- super_char.rs:131-133 -/
def SuperChar.hasVs (s : SuperChar) : Bool := s &&& vsMask != 0#32

/-- super_char.rs:138-159; the shifted value is below 16, so `unreachable!` is not needed. -/
def SuperChar.vs (s : SuperChar) : Option VariationSelector :=
  match (s >>> 28).toNat with
  | 0 => none
  | k + 1 => if h : k < 15 then some ⟨k, h⟩ else none

/-- super_char.rs:186-189; `from_u32_unchecked`. The theorems show that the bits are always a
valid scalar value, so `Char.ofNat` never falls back to its default. -/
def SuperChar.baseChar (s : SuperChar) : Char := Char.ofNat (s &&& charMask).toNat

/-- super_char.rs:195-202 -/
def SuperChar.tryAsChar (s : SuperChar) : Option Char :=
  if s &&& charMask == s then some s.baseChar else none

/-- super_char.rs:350-439 `PRECOMPOSED_SOLIDUS_OVERLAY_SORTED` -/
def precomposedSorted : List (Nat × Nat) :=
  [
   (0x003C, 0x226E), (0x003D, 0x2260), (0x003E, 0x226F), (0x2190, 0x219A), (0x2192, 0x219B),
   (0x2194, 0x21AE), (0x219A, 0x219A), (0x219B, 0x219B), (0x21AE, 0x21AE), (0x21CD, 0x21CD),
   (0x21CE, 0x21CE), (0x21CF, 0x21CF), (0x21D0, 0x21CD), (0x21D2, 0x21CF), (0x21D4, 0x21CE),
   (0x2203, 0x2204), (0x2204, 0x2204), (0x2208, 0x2209), (0x2209, 0x2209), (0x220B, 0x220C),
   (0x220C, 0x220C), (0x2223, 0x2224), (0x2224, 0x2224), (0x2225, 0x2226), (0x2226, 0x2226),
   (0x223C, 0x2241), (0x2241, 0x2241), (0x2243, 0x2244), (0x2244, 0x2244), (0x2245, 0x2247),
   (0x2247, 0x2247), (0x2248, 0x2249), (0x2249, 0x2249), (0x224D, 0x226D), (0x2260, 0x2260),
   (0x2261, 0x2262), (0x2262, 0x2262), (0x2264, 0x2270), (0x2265, 0x2271), (0x226D, 0x226D),
   (0x226E, 0x226E), (0x226F, 0x226F), (0x2270, 0x2270), (0x2271, 0x2271), (0x2272, 0x2274),
   (0x2273, 0x2275), (0x2274, 0x2274), (0x2275, 0x2275), (0x2276, 0x2278), (0x2277, 0x2279),
   (0x2278, 0x2278), (0x2279, 0x2279), (0x227A, 0x2280), (0x227B, 0x2281), (0x227C, 0x22E0),
   (0x227D, 0x22E1), (0x2280, 0x2280), (0x2281, 0x2281), (0x2282, 0x2284), (0x2283, 0x2285),
   (0x2284, 0x2284), (0x2285, 0x2285), (0x2286, 0x2288), (0x2287, 0x2289), (0x2288, 0x2288),
   (0x2289, 0x2289), (0x2291, 0x22E2), (0x2292, 0x22E3), (0x22A2, 0x22AC), (0x22A8, 0x22AD),
   (0x22A9, 0x22AE), (0x22AB, 0x22AF), (0x22AC, 0x22AC), (0x22AD, 0x22AD), (0x22AE, 0x22AE),
   (0x22AF, 0x22AF), (0x22B2, 0x22EA), (0x22B3, 0x22EB), (0x22B4, 0x22EC), (0x22B5, 0x22ED),
   (0x22E0, 0x22E0), (0x22E1, 0x22E1), (0x22E2, 0x22E2), (0x22E3, 0x22E3), (0x22EA, 0x22EA),
   (0x22EB, 0x22EB), (0x22EC, 0x22EC), (0x22ED, 0x22ED)]

/-- super_char.rs:335-342 `eytzingerise`: fills `data` from the sorted table; `fuel` bounds the
recursion depth (the index doubles at each level). -/
def eytzingerise : Nat → Array (Nat × Nat) → Nat → Nat → Nat × Array (Nat × Nat)
  | 0, data, i, _ => (i, data)
  | fuel + 1, data, i, k =>
    if k < data.size then
      let (i, data) := eytzingerise fuel data i (2 * k)
      let data := data.setIfInBounds k (precomposedSorted.getD i (0, 0))
      eytzingerise fuel data (i + 1) (2 * k + 1)
    else (i, data)

/-- super_char.rs:330-346 `PRECOMPOSED_SOLIDUS_OVERLAY_EYTZINGER` -/
def precomposedEytzinger : Array (Nat × Nat) :=
  (eytzingerise 8 (Array.replicate (precomposedSorted.length + 1) (0, 0)) 0 1).2

/-- The entry at an index (Rust indexing `table[k]`; all uses are in bounds). -/
def eytzSlot (table : Array (Nat × Nat)) (k : Nat) : Nat × Nat := table.getD k (0, 0)

/-- super_char.rs:297-307, the search loop over a table in Eytzinger layout; returns the final
index `k`. The index at least doubles, so `fuel` = table size suffices. -/
def eytzSearch (table : Array (Nat × Nat)) (bmp : Nat) : Nat → Nat → Nat
  | 0, k => k
  | fuel + 1, k =>
    if k < table.size then
      let key := (eytzSlot table k).1
      if key < bmp then eytzSearch table bmp fuel (2 * k + 1)
      else if key = bmp then k
      else eytzSearch table bmp fuel (2 * k)
    else k

/-- super_char.rs:292-317 `get_precomposed_solidus_overlay` -/
def getPrecomposed (c : Char) : Option Char :=
  if c.toNat > 0xFFFF then none
  else
    let bmp := c.toNat
    let k := eytzSearch precomposedEytzinger bmp precomposedEytzinger.size 1
    if k == 0 || k ≥ precomposedEytzinger.size then none
    else
      let slot := eytzSlot precomposedEytzinger k
      if slot.1 ≠ bmp then none else some (Char.ofNat slot.2)

/-- super_char.rs:167-181 -/
def SuperChar.withOverlay (s : SuperChar) (o : OverlayChar) : SuperChar :=
  match o with
  | .solidus =>
    match (if s.hasVs then none else getPrecomposed s.baseChar) with
    | some p => (s &&& ~~~charMask) ||| BitVec.ofNat 32 p.toNat
    | none => s ||| solidusBit
  | .verticalLine => s ||| verticalLineBit

/-- super_char.rs:266-285 `SuperCharChars::next`: the item (if any) and the new state. -/
def SuperChar.nextChar (s : SuperChar) : Option (Char × SuperChar) :=
  let base := s &&& charMask
  if base ≠ charMask then some (Char.ofNat base.toNat, s ||| charMask)
  else match s.vs with
    | some v => some (v.toChar, s &&& ~~~vsMask)
    | none =>
      if s &&& solidusBit ≠ 0#32 then some ('\u0338', s &&& ~~~solidusBit)
      else if s &&& verticalLineBit ≠ 0#32 then some ('\u20D2', s &&& ~~~verticalLineBit)
      else none

/-- Collecting the iterator of super_char.rs:124-126; `fuel` bounds the number of items. -/
def SuperChar.collect : Nat → SuperChar → Str
  | 0, _ => []
  | fuel + 1, s => match s.nextChar with
    | none => []
    | some (c, s) => c :: collect fuel s

/-- super_char.rs:124-126 and 234-241: the text of a `SuperChar`. (At most four items exist;
five units of fuel include the final `None`.) -/
def SuperChar.text (s : SuperChar) : Str := s.collect 5

end Verif.Model

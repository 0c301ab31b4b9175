import Verif.Spec.Replace
import Verif.Lemmas.Percent
/-! The search for delimiters: bytes and characters, windows and the whole text. -/
namespace Verif
open Model Spec Model.Replacer

/-! ### Text and bytes -/

@[simp] theorem enc_nil : enc [] = [] := rfl
theorem enc_cons (c : Char) (s : Str) : enc (c :: s) = String.utf8EncodeChar c ++ enc s := rfl
theorem enc_append (a b : Str) : enc (a ++ b) = enc a ++ enc b := by simp [enc]

theorem enc_length (s : Str) : (enc s).length = blen s := by
  induction s with
  | nil => rfl
  | cons c cs ih => simp [enc_cons, ih]

theorem enc_eq_nil {s : Str} (h : enc s = []) : s = [] := by
  cases s with
  | nil => rfl
  | cons c cs => simp [enc_cons, String.utf8EncodeChar_ne_nil] at h

/-- The first byte of a character starts a character. -/
theorem utf8_head (c : Char) : ∃ b bs, String.utf8EncodeChar c = b :: bs ∧ b.IsUTF8FirstByte ∧
    ∀ x ∈ bs, ¬ x.IsUTF8FirstByte := by
  cases h : String.utf8EncodeChar c with
  | nil => exact absurd h String.utf8EncodeChar_ne_nil
  | cons b bs =>
    refine ⟨b, bs, rfl, ?_, ?_⟩
    · have := (UInt8.isUTF8FirstByte_getElem_utf8EncodeChar (c := c) (i := 0) (hi := by rw [h]; simp)).2 rfl
      simpa [h] using this
    · intro x hx hb
      obtain ⟨i, hi, rfl⟩ := List.getElem_of_mem hx
      have := (UInt8.isUTF8FirstByte_getElem_utf8EncodeChar (c := c) (i := i + 1)
        (hi := by rw [h]; simpa using hi)).1 (by simpa [h] using hb)
      omega

theorem isPrefixOf_iff {α : Type} [BEq α] [LawfulBEq α] {a b : List α} : a.isPrefixOf b = true ↔ a <+: b :=
  List.isPrefixOf_iff_prefix

/-- Prefixes of texts and of their bytes. -/
theorem enc_prefix (d s : Str) : enc d <+: enc s ↔ d <+: s := by
  constructor
  · intro h
    induction d generalizing s with
    | nil => exact List.nil_prefix
    | cons c d ih =>
      obtain ⟨t, ht⟩ := h
      cases s with
      | nil => simp [enc_cons, String.utf8EncodeChar_ne_nil] at ht
      | cons e s =>
        rw [enc_cons, enc_cons, List.append_assoc] at ht
        obtain ⟨rfl, h2⟩ := utf8_append_inj ht
        exact (List.cons_prefix_cons).2 ⟨rfl, ih s ⟨t, h2⟩⟩
  · rintro ⟨t, rfl⟩
    rw [enc_append]; exact List.prefix_append _ _

/-! ### The leftmost occurrence -/

theorem findBytes_nil (h : Bytes) : findBytes [] h = some 0 := by
  cases h <;> simp [findBytes]

theorem findBytes_some {n h : Bytes} {p : Nat} (hf : findBytes n h = some p) :
    n <+: h.drop p ∧ p + n.length ≤ h.length ∧ ∀ q, q < p → ¬ n <+: h.drop q := by
  induction h generalizing p with
  | nil =>
    unfold findBytes at hf
    split at hf
    · rename_i he
      cases hf
      have : n = [] := by simpa using he
      subst this
      exact ⟨by simp, by simp, by omega⟩
    · cases hf
  | cons b bs ih =>
    unfold findBytes at hf
    split at hf
    · rename_i he
      cases hf
      have he := isPrefixOf_iff.1 he
      exact ⟨he, by have := he.length_le; simpa using this, by omega⟩
    · rename_i he
      rw [isPrefixOf_iff] at he
      cases hr : findBytes n bs with
      | none => rw [hr] at hf; cases hf
      | some q =>
        rw [hr] at hf
        simp at hf
        subst hf
        obtain ⟨h1, h2, h3⟩ := ih hr
        refine ⟨by simpa using h1, by simp; omega, ?_⟩
        intro k hk
        cases k with
        | zero => simpa using he
        | succ k => simpa using h3 k (by omega)

theorem findBytes_none {n h : Bytes} (hf : findBytes n h = none) : ∀ q, q ≤ h.length → ¬ n <+: h.drop q := by
  induction h with
  | nil =>
    intro q hq hp
    simp at hp
    subst hp
    simp [findBytes] at hf
  | cons b bs ih =>
    unfold findBytes at hf
    split at hf
    · cases hf
    · rename_i he
      rw [isPrefixOf_iff] at he
      have hr : findBytes n bs = none := by simpa using hf
      intro q hq
      cases q with
      | zero => simpa using he
      | succ q => simpa using ih hr q (by simpa using hq)

theorem findBytes_eq {n h : Bytes} {p : Nat} (h1 : n <+: h.drop p) (h2 : p ≤ h.length)
    (h3 : ∀ q, q < p → ¬ n <+: h.drop q) : findBytes n h = some p := by
  cases hf : findBytes n h with
  | none => exact absurd h1 (findBytes_none hf p h2)
  | some q =>
    obtain ⟨g1, g2, g3⟩ := findBytes_some hf
    rcases Nat.lt_trichotomy p q with hlt | heq | hgt
    · exact absurd h1 (g3 p hlt)
    · rw [heq]
    · exact absurd g1 (h3 q hgt)

theorem findBytes_eq_none {n h : Bytes} (h1 : ∀ q, q ≤ h.length → ¬ n <+: h.drop q) : findBytes n h = none := by
  cases hf : findBytes n h with
  | none => rfl
  | some q =>
    obtain ⟨g1, g2, g3⟩ := findBytes_some hf
    exact absurd g1 (h1 q (by omega))

/-- Only occurrences which fit into a window are found in it. -/
theorem findBytes_take (n h : Bytes) (e : Nat) (he : e ≤ h.length) :
    findBytes n (h.take e) = (findBytes n h).filter (fun p => p + n.length ≤ e) := by
  have pre : ∀ q, n <+: (h.take e).drop q ↔ n <+: h.drop q ∧ (q + n.length ≤ e ∨ n = []) := by
    intro q
    rw [List.drop_take, List.prefix_take_iff]
    by_cases hn : n = []
    · subst hn; simp
    · have : 0 < n.length := List.length_pos_iff.2 hn
      constructor
      · rintro ⟨h1, h2⟩; exact ⟨h1, Or.inl (by omega)⟩
      · rintro ⟨h1, h2⟩
        refine ⟨h1, ?_⟩
        rcases h2 with h2 | h2
        · omega
        · exact absurd h2 hn
  cases hf : findBytes n h with
  | none =>
    have := findBytes_none hf
    simp only [Option.filter_none]
    apply findBytes_eq_none
    intro q hq hp
    exact this q (by simp at hq; omega) ((pre q).1 hp).1
  | some p =>
    obtain ⟨g1, g2, g3⟩ := findBytes_some hf
    by_cases hpe : p + n.length ≤ e
    · rw [Option.filter_some, if_pos (by simpa using hpe)]
      apply findBytes_eq
      · exact (pre p).2 ⟨g1, Or.inl hpe⟩
      · simp; omega
      · intro q hq hp
        exact g3 q hq ((pre q).1 hp).1
    · rw [Option.filter_some, if_neg (by simpa using hpe)]
      apply findBytes_eq_none
      intro q hq hp
      rcases ((pre q).1 hp).2 with h4 | rfl
      · by_cases hlt : q < p
        · exact g3 q hlt ((pre q).1 hp).1
        · omega
      · rw [findBytes_nil] at hf; cases hf
        simp at hpe

/-! ### Skipping escaped delimiters -/

theorem findLoop_ge {n input : Bytes} {fuel off p : Nat} (h : findLoop n input fuel off = some p) : off ≤ p := by
  induction fuel generalizing off with
  | zero => cases h
  | succ fuel ih =>
    unfold findLoop at h
    cases hf : findBytes n (input.drop off) with
    | none => rw [hf] at h; cases h
    | some rel =>
      rw [hf] at h
      simp only at h
      split at h
      · have := ih h; omega
      · cases h; omega

theorem findLoop_fits {n input : Bytes} {fuel off p : Nat} (h : findLoop n input fuel off = some p)
    (hoff : off ≤ input.length) : p + n.length ≤ input.length := by
  induction fuel generalizing off with
  | zero => cases h
  | succ fuel ih =>
    unfold findLoop at h
    cases hf : findBytes n (input.drop off) with
    | none => rw [hf] at h; cases h
    | some rel =>
      rw [hf] at h
      have := (findBytes_some hf).2.1
      simp only [List.length_drop] at this
      simp only at h
      split at h
      · exact ih h (by omega)
      · cases h; omega

theorem findLoop_enough {n input : Bytes} (hn : n ≠ []) {fuel fuel' off : Nat} (hoff : off ≤ input.length)
    (h1 : input.length - off < fuel) (h2 : input.length - off < fuel') :
    findLoop n input fuel off = findLoop n input fuel' off := by
  have hlen : 0 < n.length := List.length_pos_iff.2 hn
  induction fuel generalizing fuel' off with
  | zero => omega
  | succ fuel ih =>
    cases fuel' with
    | zero => omega
    | succ fuel' =>
      unfold findLoop
      cases hf : findBytes n (input.drop off) with
      | none => rfl
      | some rel =>
        have := (findBytes_some hf).2.1
        simp only [List.length_drop] at this
        simp only
        split
        · exact ih (by omega) (by omega) (by omega)
        · rfl

theorem findLoop_take {n input : Bytes} (hn : n ≠ []) {e : Nat} (he : e ≤ input.length) {fuel fuel' off : Nat}
    (hoff : off ≤ e) (h1 : input.length - off < fuel) (h2 : e - off < fuel') :
    findLoop n (input.take e) fuel' off =
      (findLoop n input fuel off).filter (fun p => p + n.length ≤ e) := by
  have hlen : 0 < n.length := List.length_pos_iff.2 hn
  induction fuel generalizing fuel' off with
  | zero => omega
  | succ fuel ih =>
    cases fuel' with
    | zero => omega
    | succ fuel' =>
      unfold findLoop
      rw [List.drop_take, findBytes_take _ _ _ (by simp; omega)]
      cases hf : findBytes n (input.drop off) with
      | none => simp
      | some rel =>
        have hfit := (findBytes_some hf).2.1
        simp only [List.length_drop] at hfit
        simp only
        by_cases hw : rel + n.length ≤ e - off
        · rw [Option.filter_some, if_pos (by simpa using hw)]
          simp only
          have hget : 0 < off + rel → (input.take e)[off + rel - 1]? = input[off + rel - 1]? := by
            intro hpos
            rw [List.getElem?_take, if_pos (by omega)]
          by_cases hesc : 0 < off + rel ∧ input[off + rel - 1]? = some 0x5c
          · rw [if_pos (by rw [hget hesc.1]; exact hesc), if_pos hesc]
            exact ih (by omega) (by omega) (by omega)
          · rw [if_neg hesc, if_neg (by
              rintro ⟨h3, h4⟩; rw [hget h3] at h4; exact hesc ⟨h3, h4⟩)]
            rw [Option.filter_some, if_pos (by simp; omega)]
        · rw [Option.filter_some, if_neg (by simpa using hw)]
          simp only
          split
          · cases hr : findLoop n input fuel (off + rel + n.length) with
            | none => rfl
            | some p =>
              have := findLoop_ge hr
              rw [Option.filter_some, if_neg (by simp; omega)]
          · rw [Option.filter_some, if_neg (by simp; omega)]

theorem findLoop_nil (input : Bytes) (fuel : Nat) : findLoop [] input (fuel + 1) 0 = some 0 := by
  unfold findLoop
  rw [findBytes_nil]; simp

theorem position_take (r : Replacer) (n input : Bytes) (e : Nat) (he : e ≤ input.length) :
    r.findDelimiterPosition (input.take e) n =
      (r.findDelimiterPosition input n).filter (fun p => p + n.length ≤ e) := by
  unfold findDelimiterPosition
  cases r.ignoreEscaped with
  | false => simpa using findBytes_take n input e he
  | true =>
    simp only [Bool.not_true, Bool.false_eq_true, if_false]
    by_cases hn : n = []
    · subst hn
      rw [findLoop_nil, findLoop_nil]; simp [Option.filter_some]
    · exact findLoop_take hn he (Nat.zero_le _) (by omega) (by simp; omega)

theorem position_fits {r : Replacer} {n input : Bytes} {p : Nat}
    (h : r.findDelimiterPosition input n = some p) : p + n.length ≤ input.length := by
  unfold findDelimiterPosition at h
  split at h
  · exact (findBytes_some h).2.1
  · exact findLoop_fits h (Nat.zero_le _)

/-- The windowed search finds what a search over the whole text finds. -/
theorem findNextLoop_eq (r : Replacer) (input ni nb : Bytes) (fuel window : Nat) (hw : 0 < window)
    (h : input.length - window < fuel) :
    r.findNextLoop input ni nb fuel window =
      closest (r.findDelimiterPosition input ni) (r.findDelimiterPosition input nb) := by
  induction fuel generalizing window with
  | zero => omega
  | succ fuel ih =>
    unfold findNextLoop
    simp only
    have he : min window input.length ≤ input.length := Nat.min_le_right ..
    rw [position_take r ni input _ he, position_take r nb input _ he]
    have hI : ∀ p, r.findDelimiterPosition input ni = some p → p + ni.length ≤ input.length :=
      fun p hp => position_fits hp
    have hB : ∀ p, r.findDelimiterPosition input nb = some p → p + nb.length ≤ input.length :=
      fun p hp => position_fits hp
    generalize r.findDelimiterPosition input ni = I at *
    generalize r.findDelimiterPosition input nb = B at *
    by_cases hfull : input.length ≤ window
    · have hmin : min window input.length = input.length := by omega
      rw [hmin]
      have fI : I.filter (fun p => p + ni.length ≤ input.length) = I := by
        cases I with
        | none => rfl
        | some p => rw [Option.filter_some, if_pos (by simpa using hI p rfl)]
      have fB : B.filter (fun p => p + nb.length ≤ input.length) = B := by
        cases B with
        | none => rfl
        | some p => rw [Option.filter_some, if_pos (by simpa using hB p rfl)]
      rw [fI, fB]
      cases hc : closest I B with
      | none => simp
      | some found => simp
    · have hmin : min window input.length = window := by omega
      rw [hmin]
      cases hc : closest (I.filter (fun p => p + ni.length ≤ window)) (B.filter (fun p => p + nb.length ≤ window)) with
      | none =>
        simp only
        rw [if_neg (by omega)]
        exact ih _ (by omega) (by omega)
      | some found =>
        simp only
        split
        · exact ih _ (by omega) (by omega)
        · rename_i hn
          have hfit : found.2 + max ni.length nb.length ≤ window := by omega
          rw [← hc]
          cases I with
          | none =>
            cases B with
            | none => rfl
            | some b =>
              by_cases hb : b + nb.length ≤ window
              · rw [Option.filter_some, if_pos (by simpa using hb)]; simp [closest]
              · rw [Option.filter_some, if_neg (by simpa using hb)] at hc; simp [closest] at hc
          | some a =>
            cases B with
            | none =>
              by_cases ha : a + ni.length ≤ window
              · rw [Option.filter_some, if_pos (by simpa using ha)]; simp [closest]
              · rw [Option.filter_some, if_neg (by simpa using ha)] at hc; simp [closest] at hc
            | some b =>
              by_cases ha : a + ni.length ≤ window <;> by_cases hb : b + nb.length ≤ window
              · rw [Option.filter_some, if_pos (by simpa using ha), Option.filter_some, if_pos (by simpa using hb)]
              · rw [Option.filter_some, if_pos (by simpa using ha), Option.filter_some,
                  if_neg (by simpa using hb)] at hc ⊢
                simp only [closest, Option.some.injEq] at hc
                subst hc
                simp only at hfit
                simp only [closest]
                rw [if_neg (by omega)]
              · rw [Option.filter_some, if_neg (by simpa using ha), Option.filter_some,
                  if_pos (by simpa using hb)] at hc ⊢
                simp only [closest, Option.some.injEq] at hc
                subst hc
                simp only at hfit
                simp only [closest]
                rw [if_pos (by omega)]
              · rw [Option.filter_some, if_neg (by simpa using ha), Option.filter_some,
                  if_neg (by simpa using hb)] at hc
                simp [closest] at hc

/-! ### From bytes to characters -/

/-- Bytes inside a character cannot be the start of a delimiter. -/
theorem findBytes_skip {n t x : Bytes} {b : UInt8} {bs : Bytes} (hn : n = b :: bs) (hb : b.IsUTF8FirstByte)
    (ht : ∀ y ∈ t, ¬ y.IsUTF8FirstByte) : findBytes n (t ++ x) = (findBytes n x).map (· + t.length) := by
  induction t with
  | nil => simp
  | cons y ys ih =>
    simp only [List.cons_append]
    rw [findBytes, if_neg, ih (fun z hz => ht z (List.mem_cons_of_mem _ hz))]
    · cases findBytes n x <;> simp [Nat.add_assoc]
    · intro hp
      rw [isPrefixOf_iff, hn, List.cons_prefix_cons] at hp
      exact ht y (List.mem_cons_self ..) (hp.1 ▸ hb)

/-- Without escapes, the last character does not matter. -/
theorem beforeDelim_prev (d : Str) (p q : Option Char) (s : Str) :
    beforeDelim false d 0 p s = beforeDelim false d 0 q s := by
  cases s <;> simp [beforeDelim]

theorem findBytes_enc {d : Str} (hd : d ≠ []) (s : Str) :
    findBytes (enc d) (enc s) = (beforeDelim false d 0 none s).map blen := by
  induction s with
  | nil =>
    have : enc d ≠ [] := fun h => hd (enc_eq_nil h)
    simp [findBytes, beforeDelim, this, hd]
  | cons c s ih =>
    obtain ⟨b, bs, h1, h2, h3⟩ := utf8_head c
    have hpre : (enc d).isPrefixOf (enc (c :: s)) = true ↔ d.isPrefixOf (c :: s) = true := by
      rw [isPrefixOf_iff, isPrefixOf_iff, enc_prefix]
    unfold beforeDelim
    by_cases hp : d.isPrefixOf (c :: s) = true
    · rw [if_pos ⟨rfl, hp⟩]
      simp only [Bool.false_eq_true, false_and, if_false, Option.map_some, blen_nil]
      have := hpre.2 hp
      rw [enc_cons, h1, List.cons_append] at this ⊢
      rw [findBytes, if_pos this]
    · rw [if_neg (fun h => hp h.2)]
      have hne : ¬ (enc d).isPrefixOf (enc (c :: s)) = true := fun h => hp (hpre.1 h)
      rw [enc_cons, h1, List.cons_append] at hne ⊢
      rw [findBytes, if_neg hne]
      cases d with
      | nil => exact absurd rfl hd
      | cons x d =>
        obtain ⟨b', bs', g1, g2, g3⟩ := utf8_head x
        rw [findBytes_skip (n := enc (x :: d)) (by rw [enc_cons, g1]; rfl) g2 h3, ih,
          beforeDelim_prev _ (some c) none]
        have hlen : bs.length + 1 = c.utf8Size := by
          have := congrArg List.length h1
          simp at this; omega
        cases beforeDelim false (x :: d) 0 none s with
        | none => rfl
        | some p => simp; omega

/-- What is found is there. -/
theorem beforeDelim_spec (ignore : Bool) (d : Str) (k : Nat) (prev : Option Char) (s p : Str)
    (h : beforeDelim ignore d k prev s = some p) : ∃ rest, s = p ++ d ++ rest := by
  induction s generalizing k prev p with
  | nil =>
    unfold beforeDelim at h
    split at h
    · rename_i hd
      cases h
      have : d = [] := by simpa using hd
      exact ⟨[], by simp [this]⟩
    · cases h
  | cons c s ih =>
    unfold beforeDelim at h
    split at h
    · rename_i hp
      split at h
      · cases hr : beforeDelim ignore d (d.length - 1) (some c) s with
        | none => rw [hr] at h; cases h
        | some q =>
          rw [hr] at h
          simp at h
          subst h
          obtain ⟨rest, hrest⟩ := ih _ _ _ hr
          exact ⟨rest, by rw [hrest]; simp⟩
      · cases h
        obtain ⟨rest, hrest⟩ := isPrefixOf_iff.1 hp.2
        exact ⟨rest, by simpa using hrest.symm⟩
    · cases hr : beforeDelim ignore d (k - 1) (some c) s with
      | none => rw [hr] at h; cases h
      | some q =>
        rw [hr] at h
        simp at h
        subst h
        obtain ⟨rest, hrest⟩ := ih _ _ _ hr
        exact ⟨rest, by rw [hrest]; simp⟩

theorem beforeDelim_skip (ignore : Bool) (d x rest : Str) (hx : x ≠ []) (prev : Option Char) :
    beforeDelim ignore d x.length prev (x ++ rest) = (beforeDelim ignore d 0 x.getLast? rest).map (x ++ ·) := by
  induction x generalizing prev with
  | nil => exact absurd rfl hx
  | cons c x ih =>
    simp only [List.cons_append, List.length_cons]
    rw [beforeDelim, if_neg (by simp)]
    simp only [Nat.add_sub_cancel]
    cases x with
    | nil => simp
    | cons y ys =>
      rw [ih (by simp)]
      have : (c :: y :: ys).getLast? = (y :: ys).getLast? := by simp
      rw [this]
      cases beforeDelim ignore d 0 (y :: ys).getLast? rest <;> simp

theorem beforeDelim_cons (i : Bool) (d : Str) (k : Nat) (prev : Option Char) (c : Char) (s : Str) :
    beforeDelim i d k prev (c :: s) =
    if k = 0 ∧ d.isPrefixOf (c :: s) then
      if i ∧ prev = some '\\' ∧ d ≠ [] then
        (beforeDelim i d (d.length - 1) (some c) s).map (c :: ·)
      else some []
    else (beforeDelim i d (k - 1) (some c) s).map (c :: ·) := rfl

/-- With escapes, in terms of the first occurrence of any kind. -/
theorem beforeDelim_escape (d : Str) (hd : d ≠ []) (prev : Option Char) (s : Str) :
    beforeDelim true d 0 prev s = match beforeDelim false d 0 none s with
      | none => none
      | some p =>
        if (p.getLast?.or prev) = some '\\' then
          (beforeDelim true d 0 d.getLast? (s.drop (p.length + d.length))).map (p ++ d ++ ·)
        else some p := by
  induction s generalizing prev with
  | nil => simp [beforeDelim, hd]
  | cons c s ih =>
    rw [beforeDelim_cons true, beforeDelim_cons false]
    by_cases hp : d.isPrefixOf (c :: s) = true
    · have hc : (0 = 0 ∧ d.isPrefixOf (c :: s) = true) := ⟨rfl, hp⟩
      rw [if_pos hc, if_pos hc]
      simp only [Bool.false_eq_true, false_and, if_false, List.getLast?_nil, Option.none_or, List.length_nil,
        Nat.zero_add, List.nil_append]
      by_cases he : prev = some '\\'
      · rw [if_pos ⟨trivial, he, hd⟩, if_pos he]
        obtain ⟨rest, hrest⟩ := isPrefixOf_iff.1 hp
        rw [← hrest, List.drop_left]
        cases d with
        | nil => exact absurd rfl hd
        | cons x d =>
          simp only [List.cons_append, List.cons.injEq] at hrest
          obtain ⟨rfl, rfl⟩ := hrest
          simp only [List.length_cons, Nat.add_sub_cancel]
          cases d with
          | nil => simp
          | cons y ys =>
            have := beforeDelim_skip true (x :: y :: ys) (y :: ys) rest (by simp) (some x)
            rw [this]
            have : (x :: y :: ys).getLast? = (y :: ys).getLast? := by simp
            rw [this]
            cases beforeDelim true (x :: y :: ys) 0 (y :: ys).getLast? rest <;> simp
      · rw [if_neg (fun h => he h.2.1), if_neg he]
    · have hc : ¬(0 = 0 ∧ d.isPrefixOf (c :: s) = true) := fun h => hp h.2
      rw [if_neg hc, if_neg hc]
      simp only [Nat.zero_sub]
      rw [ih, beforeDelim_prev _ (some c) none]
      cases beforeDelim false d 0 none s with
      | none => rfl
      | some p =>
        simp only [Option.map_some, List.length_cons]
        have e1 : p.getLast?.or (some c) = ((c :: p).getLast?).or prev := by
          cases p with
          | nil => rfl
          | cons x xs =>
            simp only [List.getLast?_cons_cons]
            cases h : (x :: xs).getLast? with
            | none => simp at h
            | some z => rfl
        rw [e1, show p.length + 1 + d.length = p.length + d.length + 1 by omega, List.drop_succ_cons]
        split
        · cases beforeDelim true d 0 d.getLast? (s.drop (p.length + d.length)) <;> simp
        · rfl

theorem backslash_byte (x : Str) (hx : x ≠ []) (y : Bytes) :
    (enc x ++ y)[blen x - 1]? = some 0x5c ↔ x.getLast? = some '\\' := by
  obtain ⟨z, c, rfl⟩ : ∃ z c, x = z ++ [c] := by
    have := List.dropLast_concat_getLast hx
    exact ⟨_, _, this.symm⟩
  have hpos := utf8Size_pos c
  have e : enc [c] = String.utf8EncodeChar c := by simp [enc]
  rw [enc_append, List.append_assoc, blen_append,
    List.getElem?_append_right (by rw [enc_length]; simp; omega), enc_length]
  simp only [blen_cons, blen_nil, Nat.add_zero]
  rw [show blen z + c.utf8Size - 1 - blen z = c.utf8Size - 1 by omega, e,
    List.getElem?_append_left (by simp; omega)]
  have hi : c.utf8Size - 1 < (String.utf8EncodeChar c).length := by simp; omega
  rw [List.getElem?_eq_getElem hi]
  simp only [Option.some.injEq, List.getLast?_append, List.getLast?_singleton, Option.some_or]
  constructor
  · intro h
    have hf := (UInt8.isUTF8FirstByte_getElem_utf8EncodeChar (c := c) (i := c.utf8Size - 1) (hi := hi)).1
      (by rw [h]; decide)
    have hs : String.utf8EncodeChar c = String.utf8EncodeChar '\\' := by
      have h1 : (String.utf8EncodeChar c).length = 1 := by simp; omega
      obtain ⟨b, hb⟩ := List.length_eq_one_iff.1 h1
      have : b = 0x5c := by
        have := h
        simp only [hb] at this
        simpa [hf] using this
      rw [hb, this]; decide
    exact (utf8_append_inj (x := []) (y := []) (by simpa using hs)).1
  · rintro rfl
    have e : String.utf8EncodeChar '\\' = [0x5c] := by decide
    have e2 : '\\'.utf8Size = 1 := by decide
    simp [e, e2]

/-- The search which skips escaped delimiters, from a place inside a text. -/
theorem findLoop_enc {d : Str} (hd : d ≠ []) (fuel : Nat) (a b : Str) (hf : blen b < fuel) :
    findLoop (enc d) (enc (a ++ b)) fuel (blen a) =
      (beforeDelim true d 0 a.getLast? b).map (fun p => blen a + blen p) := by
  induction fuel generalizing a b with
  | zero => omega
  | succ fuel ih =>
    unfold findLoop
    rw [show (enc (a ++ b)).drop (blen a) = enc b by
      rw [enc_append, ← enc_length a, List.drop_left]]
    rw [findBytes_enc hd, beforeDelim_escape d hd]
    cases hp : beforeDelim false d 0 none b with
    | none => rfl
    | some p =>
      obtain ⟨rest, hrest⟩ := beforeDelim_spec _ _ _ _ _ _ hp
      simp only [Option.map_some]
      have hesc : (0 < blen a + blen p ∧ (enc (a ++ b))[blen a + blen p - 1]? = some 0x5c) ↔
          p.getLast?.or a.getLast? = some '\\' := by
        by_cases hne : a ++ p = []
        · have : a = [] ∧ p = [] := by simpa using hne
          obtain ⟨rfl, rfl⟩ := this
          simp
        · have h1 := backslash_byte (a ++ p) hne (enc (d ++ rest))
          rw [← enc_append, show a ++ p ++ (d ++ rest) = a ++ b by rw [hrest]; simp, blen_append] at h1
          rw [h1, List.getLast?_append]
          constructor
          · exact fun h => h.2
          · intro h
            refine ⟨?_, h⟩
            cases hap : a ++ p with
            | nil => exact absurd hap hne
            | cons x xs =>
              have := congrArg blen hap
              have := utf8Size_pos x
              simp only [blen_append, blen_cons] at *
              omega
      by_cases he : p.getLast?.or a.getLast? = some '\\'
      · rw [if_pos (hesc.2 he), if_pos he]
        rw [enc_length, show blen a + blen p + blen d = blen (a ++ p ++ d) by simp [blen_append]; omega]
        rw [show a ++ b = (a ++ p ++ d) ++ rest by rw [hrest]; simp, ih]
        · have hl : (a ++ p ++ d).getLast? = d.getLast? := by
            rw [List.getLast?_append]
            cases h : d.getLast? with
            | none => simp at h; exact absurd h hd
            | some z => rfl
          rw [hl, show b.drop (p.length + d.length) = rest by
            rw [hrest, ← List.length_append, List.drop_left]]
          cases beforeDelim true d 0 d.getLast? rest with
          | none => rfl
          | some q => simp [blen_append]; omega
        · have : blen b = blen p + blen d + blen rest := by rw [hrest]; simp [blen_append]; omega
          have : 0 < blen d := by
            cases d with
            | nil => exact absurd rfl hd
            | cons x xs => have := utf8Size_pos x; simp; omega
          omega
      · rw [if_neg (fun h => he (hesc.1 h)), if_neg he]
        simp

theorem position_enc (r : Replacer) (d s : Str) :
    r.findDelimiterPosition (enc s) (enc d) = (beforeDelim r.ignoreEscaped d 0 none s).map blen := by
  unfold findDelimiterPosition
  by_cases hd : d = []
  · subst hd
    have : beforeDelim r.ignoreEscaped [] 0 none s = some [] := by
      cases s <;> simp [beforeDelim]
    rw [this]
    cases r.ignoreEscaped with
    | false => simp [findBytes_nil]
    | true => simp [findLoop_nil]
  · cases r.ignoreEscaped with
    | false => simpa using findBytes_enc hd s
    | true =>
      simp only [Bool.not_true, Bool.false_eq_true, if_false]
      have := findLoop_enc hd ((enc s).length + 1) [] s (by rw [enc_length]; omega)
      simpa using this

theorem prefix_blen {a b s : Str} (ha : a <+: s) (hb : b <+: s) : blen b ≤ blen a ↔ b.length ≤ a.length := by
  constructor
  · intro h
    rcases Nat.lt_or_ge a.length b.length with hl | hl
    · obtain ⟨t, rfl⟩ := List.prefix_of_prefix_length_le ha hb (by omega)
      rw [blen_append] at h
      cases t with
      | nil => simp
      | cons c t => have := utf8Size_pos c; simp at h; omega
    · exact hl
  · intro h
    obtain ⟨t, rfl⟩ := List.prefix_of_prefix_length_le hb ha h
    rw [blen_append]; omega

/-- The search of the code finds the next delimiter. -/
theorem findNext_enc (r : Replacer) (opening : Bool) (s : Str) :
    r.findNextDelimiter (enc s) opening = (nextDelim r opening s).map (fun x => (x.1, blen x.2)) := by
  have key : r.findNextDelimiter (enc s) opening =
      closest (r.findDelimiterPosition (enc s) (enc (delim r opening .inline)))
        (r.findDelimiterPosition (enc s) (enc (delim r opening .block))) := by
    unfold findNextDelimiter
    cases opening with
    | true => exact findNextLoop_eq _ _ _ _ _ _ (by decide) (by omega)
    | false => exact findNextLoop_eq _ _ _ _ _ _ (by decide) (by omega)
  rw [key, position_enc, position_enc]
  unfold nextDelim
  cases h1 : beforeDelim r.ignoreEscaped (delim r opening .inline) 0 none s with
  | none =>
    cases h2 : beforeDelim r.ignoreEscaped (delim r opening .block) 0 none s with
    | none => rfl
    | some b => rfl
  | some a =>
    cases h2 : beforeDelim r.ignoreEscaped (delim r opening .block) 0 none s with
    | none => rfl
    | some b =>
      obtain ⟨ra, ha⟩ := beforeDelim_spec _ _ _ _ _ _ h1
      obtain ⟨rb, hb⟩ := beforeDelim_spec _ _ _ _ _ _ h2
      have := prefix_blen (a := a) (b := b) (s := s) (by rw [ha, List.append_assoc]; exact List.prefix_append _ _)
        (by rw [hb, List.append_assoc]; exact List.prefix_append _ _)
      simp only [Option.map_some, closest]
      by_cases hle : b.length ≤ a.length
      · rw [if_pos hle, if_pos (this.2 hle)]; rfl
      · rw [if_neg hle, if_neg (fun h => hle (this.1 h))]; rfl

theorem nextDelim_spec {r : Replacer} {opening : Bool} {s : Str} {t : MathDisplay} {p : Str}
    (h : nextDelim r opening s = some (t, p)) : ∃ rest, s = p ++ delim r opening t ++ rest := by
  unfold nextDelim at h
  split at h
  · rename_i a b h1 h2
    split at h
    · cases h; exact beforeDelim_spec _ _ _ _ _ _ h2
    · cases h; exact beforeDelim_spec _ _ _ _ _ _ h1
  · rename_i a h1 h2; cases h; exact beforeDelim_spec _ _ _ _ _ _ h1
  · rename_i b h1 h2; cases h; exact beforeDelim_spec _ _ _ _ _ _ h2
  · cases h

end Verif

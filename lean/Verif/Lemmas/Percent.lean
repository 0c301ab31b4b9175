import Verif.Model.ErrorHtml
import Verif.Spec.Text
/-! Helper lemmas about percent-encoding and UTF-8. -/
namespace Verif
open Model Spec

theorem hexVal_hexDigit (d : Nat) (h : d < 16) : hexVal (hexDigit d) = some d := by
  have : ∀ d : Fin 16, hexVal (hexDigit d.val) = some d.val := by decide
  exact this ⟨d, h⟩

theorem hexDigit_not_forbidden (d : Nat) (h : d < 16) : fragmentForbidden (hexDigit d) = false := by
  have : ∀ d : Fin 16, fragmentForbidden (hexDigit d.val) = false := by decide
  exact this ⟨d, h⟩

theorem mustEncode_fin : ∀ n : Fin 256, mustEncode (UInt8.ofNat n.val) = false →
    n.val < 128 ∧ Char.ofNat n.val ≠ '%' ∧ (Char.ofNat n.val).toNat = n.val ∧
      fragmentForbidden (Char.ofNat n.val) = false := by decide +kernel

theorem mustEncode_false {b : UInt8} (h : mustEncode b = false) :
    b.toNat < 128 ∧ Char.ofNat b.toNat ≠ '%' ∧ (Char.ofNat b.toNat).toNat = b.toNat ∧
      fragmentForbidden (Char.ofNat b.toNat) = false := by
  have := mustEncode_fin ⟨b.toNat, b.toNat_lt⟩
  simp only [UInt8.ofNat_toNat] at this
  exact this h

theorem percentDecode_encodeByte (b : UInt8) (t : Str) :
    percentDecode (encodeByte b ++ t) = (percentDecode t).map (b :: ·) := by
  unfold encodeByte
  have hb := b.toNat_lt
  split
  · simp only [List.cons_append, List.nil_append, percentDecode, if_true,
      hexVal_hexDigit (b.toNat / 16) (by omega), hexVal_hexDigit (b.toNat % 16) (by omega)]
    rw [show 16 * (b.toNat / 16) + b.toNat % 16 = b.toNat by omega]
    simp
  · rename_i h
    obtain ⟨h1, h2, h3, -⟩ := mustEncode_false (by simpa using h)
    simp only [List.cons_append, List.nil_append]
    conv => lhs; unfold percentDecode
    simp [h2, h3, h1]

theorem percentDecode_flatMap (bs : List UInt8) :
    percentDecode (bs.flatMap encodeByte) = some bs := by
  induction bs with
  | nil => rfl
  | cons b bs ih => simp [List.flatMap_cons, percentDecode_encodeByte, ih]

theorem encodeByte_safe (b : UInt8) : ∀ c ∈ encodeByte b, fragmentForbidden c = false := by
  intro c hc
  unfold encodeByte at hc
  have hb := b.toNat_lt
  split at hc
  · simp only [List.mem_cons, List.not_mem_nil, or_false] at hc
    rcases hc with rfl | rfl | rfl
    · decide
    · exact hexDigit_not_forbidden _ (by omega)
    · exact hexDigit_not_forbidden _ (by omega)
  · rename_i h
    simp only [List.mem_singleton] at hc
    subst hc
    exact (mustEncode_false (by simpa using h)).2.2.2

theorem utf8_append_inj {c d : Char} {x y : List UInt8}
    (h : String.utf8EncodeChar c ++ x = String.utf8EncodeChar d ++ y) : c = d ∧ x = y := by
  have h1 := congrArg (fun l => (List.toByteArray l).utf8DecodeChar? 0) h
  simp only [List.toByteArray_append, ByteArray.utf8DecodeChar?_utf8EncodeChar_append,
    Option.some.injEq] at h1
  subst h1
  exact ⟨rfl, List.append_cancel_left h⟩

theorem utf8_inj (s t : Str) (h : s.flatMap String.utf8EncodeChar = t.flatMap String.utf8EncodeChar) :
    s = t := by
  induction s generalizing t with
  | nil =>
    cases t with
    | nil => rfl
    | cons d ds => simp [String.utf8EncodeChar_ne_nil] at h
  | cons c cs ih =>
    cases t with
    | nil => simp [String.utf8EncodeChar_ne_nil] at h
    | cons d ds =>
      simp only [List.flatMap_cons] at h
      obtain ⟨e, h'⟩ := utf8_append_inj h
      rw [e, ih ds h']

theorem percentEncode_inj {s t : Str} (h : percentEncode s = percentEncode t) : s = t := by
  have := congrArg percentDecode h
  simp only [percentEncode, percentDecode_flatMap, Option.some.injEq] at this
  exact utf8_inj s t this

end Verif

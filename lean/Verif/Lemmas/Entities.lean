import Verif.Model.Entities
import Verif.Spec.Text
/-! Helper lemmas about entity decoding. -/
namespace Verif
open Model Spec

theorem findIdx?_append_of_not (p : Str) (c : Char) (r : Str) (h : c ∉ p) :
    (p ++ c :: r).findIdx? (· == c) = some p.length := by
  induction p with
  | nil => simp [List.findIdx?_cons]
  | cons x xs ih =>
    simp only [List.mem_cons, not_or] at h
    have hx : (x == c) = false := by simp; exact fun e => h.1 e.symm
    simp [List.findIdx?_cons, hx, ih h.2]

theorem findIdx?_none_of_not (p : Str) (c : Char) (h : c ∉ p) :
    p.findIdx? (· == c) = none := by
  rw [List.findIdx?_eq_none_iff]
  intro x hx
  simp; rintro rfl; exact h hx

/-- The shape of a text at the first occurrence of a character. -/
theorem split_first (s : Str) (c : Char) :
    c ∉ s ∨ ∃ p r, s = p ++ c :: r ∧ c ∉ p := by
  induction s with
  | nil => simp
  | cons x xs ih =>
    by_cases hx : x = c
    · right; exact ⟨[], xs, by simp [hx]⟩
    · rcases ih with h | ⟨p, r, h1, h2⟩
      · left; simp [h, Ne.symm hx]
      · right; exact ⟨x :: p, r, by simp [h1], by simp [h2, Ne.symm hx]⟩

theorem entityLoop_none (buf r : Str) (h : ';' ∉ r) :
    entityLoop buf ('&' :: r) = buf ++ '&' :: r := by
  unfold entityLoop
  simp only [List.drop_succ_cons, List.drop_zero]
  split
  · rfl
  · rename_i heq
    change List.findIdx? (· == ';') r = _ at heq
    rw [findIdx?_none_of_not r ';' h] at heq; simp at heq

theorem entityLoop_some (buf name r : Str) (h : ';' ∉ name) :
    entityLoop buf ('&' :: (name ++ ';' :: r)) =
      let buf' := match reservedMap.lookup name with
        | some c => buf ++ [c]
        | none => buf ++ '&' :: (name ++ [';'])
      match r.findIdx? (· == '&') with
      | some idx => entityLoop (buf' ++ r.take idx) (r.drop idx)
      | none => buf' ++ r := by
  rw [entityLoop]
  have e := findIdx?_append_of_not name ';' r h
  split
  · rename_i heq
    change List.findIdx? (· == ';') (name ++ ';' :: r) = _ at heq
    rw [e] at heq; simp at heq
  · rename_i index heq
    change List.findIdx? (· == ';') (name ++ ';' :: r) = _ at heq
    rw [e] at heq
    simp only [Option.some.injEq] at heq
    subst heq
    have h1 : (List.drop 1 ('&' :: (name ++ ';' :: r))).take name.length = name := by simp
    have h2 : ('&' :: (name ++ ';' :: r)).drop (name.length + 2) = r := by
      simp [List.drop_append]
    have h3 : ('&' :: (name ++ ';' :: r)).take (name.length + 2) = '&' :: (name ++ [';']) := by
      simp [List.take_append, List.take_of_length_le]
    simp only [h1, h3]
    generalize ('&' :: (name ++ ';' :: r)).drop (name.length + 2) = rem at h2
    subst h2
    split
    · rename_i heq; rw [heq]; rfl
    · rename_i heq; rw [heq]; rfl

theorem entityLoop_buf (buf r : Str) : ∀ s, s = '&' :: r →
    entityLoop buf s = buf ++ entityLoop [] s := by
  induction hn : r.length using Nat.strongRecOn generalizing buf r with
  | _ n ih =>
    rintro s rfl
    rcases split_first r ';' with h | ⟨name, rest, rfl, h⟩
    · rw [entityLoop_none _ _ h, entityLoop_none _ _ h]; simp
    · rw [entityLoop_some _ _ _ h, entityLoop_some _ _ _ h]
      simp only
      rcases split_first rest '&' with h' | ⟨p, r', rfl, h'⟩
      · rw [findIdx?_none_of_not _ _ h']
        simp only
        split <;> simp
      · rw [findIdx?_append_of_not _ _ _ h']
        simp only [List.take_left, List.drop_left]
        have hlt : r'.length < n := by
          rw [← hn]; simp; omega
        conv => lhs; rw [ih _ hlt _ r' rfl _ rfl]
        conv => rhs; rw [ih _ hlt _ r' rfl _ rfl]
        split <;> simp

theorem replace_eq_loop (s : Str) : entityLoop [] ('&' :: s) = replaceHtmlEntities ('&' :: s) := by
  simp [replaceHtmlEntities, List.findIdx?_cons]

theorem replace_plain (p : Str) (h : '&' ∉ p) : replaceHtmlEntities p = p := by
  unfold replaceHtmlEntities; rw [findIdx?_none_of_not _ _ h]

theorem replace_prefix (p r : Str) (h : '&' ∉ p) :
    replaceHtmlEntities (p ++ r) = p ++ replaceHtmlEntities r := by
  rcases split_first r '&' with h' | ⟨q, t, rfl, h'⟩
  · rw [replace_plain r h', replace_plain]; simp [h, h']
  · have hpq : '&' ∉ p ++ q := by simp [h, h']
    unfold replaceHtmlEntities
    rw [findIdx?_append_of_not _ _ _ h', ← List.append_assoc, findIdx?_append_of_not _ _ _ hpq]
    simp only [List.take_left, List.drop_left]
    rw [entityLoop_buf _ _ _ rfl, entityLoop_buf q _ _ rfl]; simp

theorem replace_entity (name r : Str) (h : ';' ∉ name) :
    replaceHtmlEntities ('&' :: (name ++ ';' :: r)) =
      (match reservedMap.lookup name with
        | some c => [c]
        | none => '&' :: (name ++ [';'])) ++ replaceHtmlEntities r := by
  rw [← replace_eq_loop, entityLoop_some _ _ _ h]
  simp only [List.nil_append]
  rcases split_first r '&' with h' | ⟨p, r', rfl, h'⟩
  · rw [findIdx?_none_of_not _ _ h', replace_plain r h']
  · rw [findIdx?_append_of_not _ _ _ h']
    simp only [List.take_left, List.drop_left]
    rw [entityLoop_buf _ _ _ rfl, replace_prefix _ _ h', replace_eq_loop]
    simp

theorem replace_unterminated (r : Str) (h : ';' ∉ r) :
    replaceHtmlEntities ('&' :: r) = '&' :: r := by
  rw [← replace_eq_loop, entityLoop_none _ _ h]; simp

theorem lookup_iff (name : Str) (c : Char) :
    reservedMap.lookup name = some c ↔ name ∈ entityNames c := by
  have h : ∀ p ∈ reservedMap, reservedMap.lookup p.1 = some p.2 ∧ p.1 ∈ entityNames p.2 := by
    decide
  constructor
  · intro hl
    obtain ⟨l1, l2, k, heq, hk, hn⟩ : ∃ l1 l2 k, reservedMap = l1 ++ (k, c) :: l2 ∧
        name == k ∧ True := by
      have := List.lookup_eq_some_iff.mp hl
      obtain ⟨l1, l2, h1, h2⟩ := this
      exact ⟨l1, l2, name, h1, by simp, trivial⟩
    have hm : (k, c) ∈ reservedMap := by rw [heq]; simp
    have := (h _ hm).2
    simp at hk; subst hk; exact this
  · intro hn
    have : ∃ p ∈ reservedMap, p = (name, c) := by
      unfold entityNames at hn
      split at hn
      all_goals first
        | (simp at hn; done)
        | (simp only [List.mem_cons, List.not_mem_nil, or_false] at hn
           rcases hn with rfl | rfl <;> exact ⟨_, by decide, rfl⟩)
    obtain ⟨p, hp, rfl⟩ := this
    exact (h _ hp).1

theorem entityNames_no_semi {c : Char} {name : Str} (h : name ∈ entityNames c) :
    ';' ∉ name := by
  unfold entityNames at h
  split at h <;> simp at h
  all_goals rcases h with rfl | rfl <;> decide

end Verif

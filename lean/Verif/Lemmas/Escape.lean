import Verif.Model.Escape
import Verif.Spec.Html
/-! Helper lemmas about escaping. -/
namespace Verif
open Model Spec

theorem stripPrefix_append (p s : Str) : stripPrefix p (p ++ s) = some s := by
  induction p with
  | nil => cases s <;> rfl
  | cons c cs ih => simp [stripPrefix, ih]

/-- `e` escapes one character in a way the decoder of the specification understands. -/
def GoodEscape (e : Char → Str) : Prop :=
  ∀ c, (e c = [c] ∧ c ≠ '&') ∨ (e c, c) ∈ entities

theorem matchEntity_not_amp {c : Char} (h : c ≠ '&') (rest : Str) :
    matchEntity entities (c :: rest) = none := by
  have h' : ¬ '&' = c := fun e => h e.symm
  simp [entities, matchEntity, stripPrefix, h']

theorem matchEntity_entity {name : Str} {c : Char} (h : (name, c) ∈ entities) (rest : Str) :
    matchEntity entities (name ++ rest) = some (c, rest) := by
  simp [entities] at h
  rcases h with ⟨rfl, rfl⟩ | ⟨rfl, rfl⟩ | ⟨rfl, rfl⟩ | ⟨rfl, rfl⟩ | ⟨rfl, rfl⟩ <;>
    simp [entities, matchEntity, stripPrefix]

theorem entity_cons {name : Str} {c : Char} (h : (name, c) ∈ entities) :
    ∃ t, name = '&' :: t ∧ '&' ∉ t ∧ '<' ∉ t ∧ '>' ∉ t ∧ '"' ∉ t := by
  simp [entities] at h
  rcases h with ⟨rfl, rfl⟩ | ⟨rfl, rfl⟩ | ⟨rfl, rfl⟩ | ⟨rfl, rfl⟩ | ⟨rfl, rfl⟩ <;>
    exact ⟨_, rfl, by decide, by decide, by decide, by decide⟩

theorem unescapeAux_flatMap {e : Char → Str} (he : GoodEscape e) (s : Str) :
    ∀ n, (s.flatMap e).length ≤ n → unescapeAux n (s.flatMap e) = s := by
  induction s with
  | nil => intro n _; cases n <;> rfl
  | cons c cs ih =>
    intro n hn
    simp only [List.flatMap_cons] at hn ⊢
    rcases he c with ⟨h1, h2⟩ | h
    · rw [h1] at hn ⊢
      cases n with
      | zero => simp at hn
      | succ n =>
        simp only [List.singleton_append, unescapeAux, matchEntity_not_amp h2]
        rw [ih n (by simp only [List.length_append, List.length_cons, List.length_nil] at hn; omega)]
    · obtain ⟨t, ht, -⟩ := entity_cons h
      cases n with
      | zero => simp [ht] at hn
      | succ n =>
        have hm := matchEntity_entity h (cs.flatMap e)
        rw [ht] at hm hn ⊢
        simp only [List.cons_append] at hm ⊢
        simp only [unescapeAux, hm]
        rw [ih n (by simp only [List.length_append, List.length_cons, List.length_nil] at hn; omega)]

theorem unescape_flatMap {e : Char → Str} (he : GoodEscape e) (s : Str) :
    unescape (s.flatMap e) = s := unescapeAux_flatMap he s _ (Nat.le_refl _)

theorem amps_flatMap {e : Char → Str} (he : GoodEscape e) (s : Str) :
    AmpsAreEntities (s.flatMap e) := by
  induction s with
  | nil => intro pre post h; simp at h
  | cons c cs ih =>
    intro pre post h
    simp only [List.flatMap_cons] at h
    rcases List.append_eq_append_iff.mp h with ⟨as, h1, h2⟩ | ⟨bs, h1, h2⟩
    · exact ih as post h2
    · -- the ampersand lies in `e c` or at the start of the rest
      rcases he c with ⟨h3, h4⟩ | h3
      · rw [h3] at h1
        cases bs with
        | nil => exact ih [] post (by simpa using h2.symm)
        | cons b bs =>
          simp only [List.cons_append, List.cons.injEq] at h2
          cases pre with
          | nil => simp at h1; exact absurd (h1.1.trans h2.1.symm) h4
          | cons p ps => simp at h1
      · obtain ⟨t, ht, hamp, -⟩ := entity_cons h3
        cases bs with
        | nil => exact ih [] post (by simpa using h2.symm)
        | cons b bs =>
          simp only [List.cons_append, List.cons.injEq] at h2
          cases pre with
          | nil =>
            refine ⟨_, h3, ?_⟩
            simp only [List.nil_append] at h1
            rw [h1, ← h2.1, h2.2]
            exact ⟨cs.flatMap e, by simp⟩
          | cons p ps =>
            rw [ht] at h1
            simp only [List.cons_append, List.cons.injEq] at h1
            exact absurd (by rw [h1.2, ← h2.1]; simp) hamp

theorem not_mem_flatMap {e : Char → Str} {q : Char} (h : ∀ c, q ∉ e c) (s : Str) :
    q ∉ s.flatMap e := by
  simp only [List.mem_flatMap, not_exists, not_and]
  intro c _; exact h c

/-- Character-wise content escaping. -/
def esc1 (c : Char) : Str := if isContentSpecial c then contentEntity c else [c]

theorem flatMap_esc1_of_none {s : Str} (h : s.findIdx? isContentSpecial = none) :
    s.flatMap esc1 = s := by
  induction s with
  | nil => rfl
  | cons c cs ih =>
    rw [List.findIdx?_eq_none_iff] at h
    have hc := h c (by simp)
    have : cs.findIdx? isContentSpecial = none := by
      rw [List.findIdx?_eq_none_iff]; intro x hx; exact h x (by simp [hx])
    simp [List.flatMap_cons, ih this, esc1, hc]

theorem escapeHtmlContent_eq (out s : Str) :
    escapeHtmlContent out s = out ++ s.flatMap esc1 := by
  fun_induction escapeHtmlContent out s with
  | case1 out s h => rw [flatMap_esc1_of_none h]
  | case2 out s i hi before h =>
    have hlt := (List.findIdx?_eq_some_iff_getElem.mp hi).1
    have := congrArg List.length h
    simp at this; omega
  | case3 out s i hi before special rest h ih =>
    obtain ⟨hlt, hp, hn⟩ := List.findIdx?_eq_some_iff_getElem.mp hi
    rw [ih]
    have hs : s = before ++ special :: rest := by
      rw [← h]; exact (List.take_append_drop i s).symm
    have hsp : special = s[i] := by
      have h2 := List.getElem_cons_drop (as := s) (i := i) hlt
      rw [h] at h2; simpa using (List.cons.inj h2).1.symm
    have hb : before.flatMap esc1 = before := by
      apply flatMap_esc1_of_none
      rw [List.findIdx?_eq_none_iff]
      intro x hx
      obtain ⟨j, hj, rfl⟩ := List.getElem_of_mem hx
      have hj' : j < i := by simp only [before, List.length_take] at hj; omega
      have := hn j hj'
      simpa [before] using this
    have : s.flatMap esc1 = before ++ (contentEntity special ++ rest.flatMap esc1) := by
      rw [hs, List.flatMap_append, hb, List.flatMap_cons]
      congr 2
      rw [hsp]; simp [esc1, hp]
    rw [this]; simp

theorem good_esc1 : GoodEscape esc1 := by
  intro c
  by_cases h1 : c = '&'
  · subst h1; right; decide
  by_cases h2 : c = '<'
  · subst h2; right; decide
  by_cases h3 : c = '>'
  · subst h3; right; decide
  left; simp [esc1, isContentSpecial, h1, h2, h3]

/-- Character-wise attribute escaping. -/
def escA (c : Char) : Str :=
  if c == '&' then c!"&amp;" else if c == '"' then c!"&quot;" else [c]

theorem escapeAttr_eq (out s : Str) : escapeAttr out s = out ++ s.flatMap escA := by
  induction s generalizing out with
  | nil => simp [escapeAttr]
  | cons c cs ih => simp [escapeAttr, ih, escA]

theorem good_escA : GoodEscape escA := by
  intro c
  by_cases h1 : c = '&'
  · subst h1; right; decide
  by_cases h2 : c = '"'
  · subst h2; right; decide
  left; simp [escA, h1, h2]

/-- Character-wise escaping of `EscapeHtml`. -/
def escH (c : Char) : Str :=
  if c == '<' then c!"&lt;" else if c == '>' then c!"&gt;" else if c == '&' then c!"&amp;"
      else if c == '"' then c!"&quot;" else if c == '\'' then c!"&#39;" else [c]

theorem escapeHtml_eq (s : Str) : escapeHtml s = s.flatMap escH := by
  induction s with
  | nil => rfl
  | cons c cs ih => simp only [escapeHtml, ih, List.flatMap_cons, escH]

theorem good_escH : GoodEscape escH := by
  intro c
  by_cases h1 : c = '&'
  · subst h1; right; decide
  by_cases h2 : c = '"'
  · subst h2; right; decide
  by_cases h3 : c = '<'
  · subst h3; right; decide
  by_cases h4 : c = '>'
  · subst h4; right; decide
  by_cases h5 : c = '\''
  · subst h5; right; decide
  left; simp [escH, h1, h2, h3, h4, h5]

theorem esc1_no {q : Char} (hq : q = '<' ∨ q = '>') (c : Char) : q ∉ esc1 c := by
  rcases good_esc1 c with ⟨h, hc⟩ | h
  · rw [h]
    intro hm
    simp only [List.mem_singleton] at hm
    subst hm
    rcases hq with rfl | rfl <;> revert h <;> decide
  · obtain ⟨t, ht, _, h2, h3, _⟩ := entity_cons h
    rw [ht]; rcases hq with rfl | rfl <;> simp [h2, h3]

theorem escA_no_quote (c : Char) : '"' ∉ escA c := by
  rcases good_escA c with ⟨h, hc⟩ | h
  · rw [h]
    intro hm
    simp only [List.mem_singleton] at hm
    subst hm
    revert h; decide
  · obtain ⟨t, ht, _, _, _, h4⟩ := entity_cons h
    rw [ht]; simp [h4]

theorem escH_no {q : Char} (hq : q = '<' ∨ q = '>' ∨ q = '"') (c : Char) : q ∉ escH c := by
  rcases good_escH c with ⟨h, hc⟩ | h
  · rw [h]
    intro hm
    simp only [List.mem_singleton] at hm
    subst hm
    rcases hq with rfl | rfl | rfl <;> revert h <;> decide
  · obtain ⟨t, ht, _, h2, h3, h4⟩ := entity_cons h
    rw [ht]; rcases hq with rfl | rfl | rfl <;> simp [h2, h3, h4]

theorem untilChar_append {q : Char} {a : Str} (h : q ∉ a) (rest : Str) :
    untilChar q (a ++ q :: rest) = some (a, rest) := by
  have h1 : (a ++ q :: rest).dropWhile (· ≠ q) = q :: rest := by
    induction a with
    | nil => simp
    | cons c cs ih =>
      have : c ≠ q := by intro e; apply h; simp [e]
      simp only [List.cons_append, List.dropWhile_cons]
      simp only [ne_eq, this, not_false_eq_true, decide_true, if_true]
      exact ih (by intro e; exact h (by simp [e]))
  have h2 : (a ++ q :: rest).takeWhile (· ≠ q) = a := by
    clear h1
    induction a with
    | nil => simp
    | cons c cs ih =>
      have : c ≠ q := by intro e; apply h; simp [e]
      simp only [List.cons_append, List.takeWhile_cons]
      simp only [ne_eq, this, not_false_eq_true, decide_true, if_true]
      rw [ih (by intro e; exact h (by simp [e]))]
  simp only [untilChar, h1, h2]

end Verif

import Verif.Lemmas.Lexer
/-! Sources which differ only in comments and whitespace have the same tokens. -/
namespace Verif
open Model Spec
namespace Lexer'
open Model.Lexer

abbrev Sim := SameButBlank

/-- What a source begins with. -/
theorem sim_head {c : Char} {s r' : Str} (h : Sim (c :: s) r') (hc : isAsciiWs c = false) :
    (c ≠ '%' ∧ c ≠ '\\' ∧ ∃ s', r' = c :: s' ∧ Sim s s') ∨
    (c = '%' ∧ ((∃ t t' b b', s = t ++ '\n' :: b ∧ r' = '%' :: (t' ++ '\n' :: b') ∧ '\n' ∉ t ∧
        '\n' ∉ t' ∧ Sim b b') ∨
      ∃ t', r' = '%' :: t' ∧ '\n' ∉ s ∧ '\n' ∉ t')) ∨
    (c = '\\' ∧ ((s = [] ∧ r' = ['\\']) ∨ ∃ d b b', s = d :: b ∧ r' = '\\' :: d :: b' ∧ Sim b b')) := by
  generalize hr : c :: s = r at h
  cases h with
  | nil => cases hr
  | char d b b' h1 h2 h3 h4 => cases hr; exact Or.inl ⟨h2, h3, b', rfl, h4⟩
  | ws w w' b b' h1 h2 h3 h4 h5 =>
    cases w with
    | nil => exact absurd rfl h1
    | cons x xs =>
      simp at hr
      have := h3 x (List.mem_cons_self ..)
      rw [← hr.1, hc] at this
      cases this
  | comment t t' b b' h1 h2 h3 =>
    cases hr; exact Or.inr (Or.inl ⟨rfl, Or.inl ⟨t, t', b, b', rfl, rfl, h1, h2, h3⟩⟩)
  | lastComment t t' h1 h2 =>
    cases hr; exact Or.inr (Or.inl ⟨rfl, Or.inr ⟨t', rfl, h1, h2⟩⟩)
  | escaped d b b' h1 =>
    cases hr; exact Or.inr (Or.inr ⟨rfl, Or.inr ⟨d, b, b', rfl, rfl, h1⟩⟩)
  | lastBackslash => cases hr; exact Or.inr (Or.inr ⟨rfl, Or.inl ⟨rfl, rfl⟩⟩)

theorem sim_nil {r' : Str} (h : Sim [] r') : r' = [] := by
  generalize hr : ([] : Str) = r at h
  cases h with
  | nil => rfl
  | ws w w' b b' h1 =>
    cases w with
    | nil => exact absurd rfl h1
    | cons x xs => simp at hr
  | _ => cases hr

/-- Both begin with whitespace or neither does, and what remains behind it corresponds. -/
theorem sim_ws {r r' w b : Str} (h : Sim r r') (hr : r = w ++ b) (hw : ∀ c ∈ w, isAsciiWs c)
    (hb : ∀ c cs, b = c :: cs → isAsciiWs c = false) :
    ∃ w' b', r' = w' ++ b' ∧ (∀ c ∈ w', isAsciiWs c) ∧ (∀ c cs, b' = c :: cs → isAsciiWs c = false) ∧
      (w = [] ↔ w' = []) ∧ Sim b b' := by
  have nows : ∀ {c s r'}, Sim (c :: s) r' → isAsciiWs c = false → ∃ s', r' = c :: s' := by
    intro c s r' h hc
    rcases sim_head h hc with ⟨-, -, s', h1, -⟩ | ⟨rfl, ⟨t, t', b, b', -, h1, -⟩ | ⟨t', h1, -⟩⟩ |
      ⟨rfl, ⟨-, h1⟩ | ⟨d, b, b', -, h1, -⟩⟩ <;> exact ⟨_, h1⟩
  induction h generalizing w b with
  | nil =>
    have : w = [] ∧ b = [] := by
      cases w with
      | nil => exact ⟨rfl, by simpa using hr.symm⟩
      | cons x xs => simp at hr
    obtain ⟨rfl, rfl⟩ := this
    exact ⟨[], [], rfl, by simp, by simp, by simp, .nil⟩
  | char c s s' h1 h2 h3 h4 ih =>
    cases w with
    | nil =>
      simp only [List.nil_append] at hr
      subst hr
      exact ⟨[], c :: s', rfl, by simp, by intro x xs hx; cases hx; exact h1, by simp, .char c s s' h1 h2 h3 h4⟩
    | cons x xs =>
      simp at hr
      have := hw x (List.mem_cons_self ..)
      rw [← hr.1, h1] at this; cases this
  | ws u u' s s' h1 h2 h3 h4 h5 ih =>
    -- the run `u` is a prefix of `w`
    have : ∃ w2, w = u ++ w2 ∧ s = w2 ++ b := by
      clear ih h1
      induction u generalizing w with
      | nil => exact ⟨w, rfl, by simpa using hr⟩
      | cons x xs ihu =>
        cases w with
        | nil =>
          simp only [List.cons_append, List.nil_append] at hr
          have := hb x _ hr.symm
          rw [h3 x (List.mem_cons_self ..)] at this; cases this
        | cons y ys =>
          simp only [List.cons_append, List.cons.injEq] at hr
          obtain ⟨w2, e1, e2⟩ := ihu (fun c hc => h3 c (List.mem_cons_of_mem _ hc)) hr.2
            (fun c hc => hw c (List.mem_cons_of_mem _ hc))
          exact ⟨w2, by rw [hr.1, e1]; rfl, e2⟩
    obtain ⟨w2, rfl, hs⟩ := this
    obtain ⟨w', b', e1, e2, e3, e4, e5⟩ := ih hs (fun c hc => hw c (List.mem_append_right _ hc)) hb
    refine ⟨u' ++ w', b', by rw [e1]; simp, ?_, e3, by simp [h1, h2], e5⟩
    intro c hc
    rcases List.mem_append.1 hc with hc | hc
    · exact h4 c hc
    · exact e2 c hc
  | comment t t' s s' h1 h2 h3 ih =>
    cases w with
    | nil =>
      simp only [List.nil_append] at hr
      subst hr
      exact ⟨[], _, rfl, by simp, by intro x xs hx; cases hx; rfl, by simp, .comment t t' s s' h1 h2 h3⟩
    | cons x xs =>
      simp at hr
      have := hw x (List.mem_cons_self ..)
      rw [← hr.1] at this; cases this
  | lastComment t t' h1 h2 =>
    cases w with
    | nil =>
      simp only [List.nil_append] at hr
      subst hr
      exact ⟨[], _, rfl, by simp, by intro x xs hx; cases hx; rfl, by simp, .lastComment t t' h1 h2⟩
    | cons x xs =>
      simp at hr
      have := hw x (List.mem_cons_self ..)
      rw [← hr.1] at this; cases this
  | escaped c s s' h1 ih =>
    cases w with
    | nil =>
      simp only [List.nil_append] at hr
      subst hr
      exact ⟨[], _, rfl, by simp, by intro x xs hx; cases hx; rfl, by simp, .escaped c s s' h1⟩
    | cons x xs =>
      simp at hr
      have := hw x (List.mem_cons_self ..)
      rw [← hr.1] at this; cases this
  | lastBackslash =>
    cases w with
    | nil =>
      simp only [List.nil_append] at hr
      subst hr
      exact ⟨[], _, rfl, by simp, by intro x xs hx; cases hx; rfl, by simp, .lastBackslash⟩
    | cons x xs =>
      simp at hr
      have := hw x (List.mem_cons_self ..)
      rw [← hr.1] at this; cases this

theorem alpha_plain {c : Char} (h : isAsciiAlpha c = true) :
    isAsciiWs c = false ∧ c ≠ '%' ∧ c ≠ '\\' := by
  refine ⟨?_, ?_, ?_⟩
  · cases hw : isAsciiWs c with
    | false => rfl
    | true =>
      simp only [isAsciiWs, Bool.or_eq_true, beq_iff_eq] at hw
      rcases hw with (((rfl | rfl) | rfl) | rfl) | rfl <;> exact absurd h (by decide)
  · rintro rfl; exact absurd h (by decide)
  · rintro rfl; exact absurd h (by decide)

/-- The letters at the front are the same. -/
theorem sim_alpha {r r' a b : Str} (h : Sim r r') (hr : r = a ++ b) (ha : ∀ c ∈ a, isAsciiAlpha c = true) :
    ∃ b', r' = a ++ b' ∧ Sim b b' := by
  induction a generalizing r r' with
  | nil => simp at hr; subst hr; exact ⟨r', rfl, h⟩
  | cons c cs ih =>
    simp only [List.cons_append] at hr
    subst hr
    obtain ⟨h1, h2, h3⟩ := alpha_plain (ha c (List.mem_cons_self ..))
    rcases sim_head h h1 with ⟨-, -, s', rfl, h5⟩ | ⟨h4, -⟩ | ⟨h4, -⟩
    · obtain ⟨b', e1, e2⟩ := ih h5 rfl (fun x hx => ha x (List.mem_cons_of_mem _ hx))
      exact ⟨b', by rw [e1]; rfl, e2⟩
    · exact absurd h4 h2
    · exact absurd h4 h3

/-- The first characters agree, or both are whitespace, or both sources are at their end. -/
theorem sim_first {r r' : Str} (h : Sim r r') :
    (r = [] ∧ r' = []) ∨
    (∃ c s c' s', r = c :: s ∧ r' = c' :: s' ∧ isAsciiWs c = true ∧ isAsciiWs c' = true) ∨
    (∃ c s s', r = c :: s ∧ r' = c :: s' ∧ isAsciiWs c = false) := by
  cases r with
  | nil => exact Or.inl ⟨rfl, sim_nil h⟩
  | cons c s =>
    cases hc : isAsciiWs c with
    | false =>
      right; right
      rcases sim_head h hc with ⟨-, -, s', h1, -⟩ | ⟨rfl, ⟨t, t', b, b', -, h1, -⟩ | ⟨t', h1, -⟩⟩ |
        ⟨rfl, ⟨-, h1⟩ | ⟨d, b, b', -, h1, -⟩⟩ <;> exact ⟨_, s, _, rfl, h1, hc⟩
    | true =>
      right; left
      obtain ⟨w, b, h1, h2, h3, -⟩ := skipWhitespace_spec ⟨0, c :: s⟩
      simp only at h1
      obtain ⟨w', b', e1, e2, e3, e4, e5⟩ := sim_ws h h1 h2 h3
      cases w with
      | nil =>
        simp only [List.nil_append] at h1
        have := h3 c s h1.symm
        rw [hc] at this; cases this
      | cons x xs =>
        cases w' with
        | nil => simp at e4
        | cons y ys => exact ⟨c, s, y, ys ++ b', rfl, e1, hc, e2 y (List.mem_cons_self ..)⟩

theorem isWs_false_of {r r' : Str} (h : Sim r r') (p : Char → Bool)
    (hp : ∀ c, isAsciiWs c = true → p c = false) (hr : ∀ c cs, r = c :: cs → p c = false) :
    ∀ c cs, r' = c :: cs → p c = false := by
  intro c cs hc
  rcases sim_first h with ⟨-, rfl⟩ | ⟨d, s, d', s', rfl, rfl, h1, h2⟩ | ⟨d, s, s', rfl, rfl, h1⟩
  · cases hc
  · cases hc; exact hp _ h2
  · cases hc; exact hr c s rfl

theorem readCommand_sim {d : Char} {b b' : Str} (h : Sim b b') (p p' : Nat) :
    ∃ name c c', readCommand ⟨p, d :: b⟩ = (name, p + blen name, ⟨p + blen name, c⟩) ∧
      readCommand ⟨p', d :: b'⟩ = (name, p' + blen name, ⟨p' + blen name, c'⟩) ∧ Sim c c' := by
  obtain ⟨a, r, h1, h2, h3, h4⟩ := readWhile_spec isAsciiAlpha p (d :: b)
  have alphaWs : ∀ c, isAsciiWs c = true → isAsciiAlpha c = false := by
    intro c hc
    cases ha : isAsciiAlpha c with
    | false => rfl
    | true => rw [(alpha_plain ha).1] at hc; cases hc
  -- the run of letters is the same
  have key : ∃ r', d :: b' = a ++ r' ∧
      ((a = [] ∧ r = d :: b ∧ r' = d :: b') ∨ (a ≠ [] ∧ Sim r r')) ∧
      (∀ c cs, r' = c :: cs → isAsciiAlpha c = false) := by
    cases a with
    | nil =>
      simp only [List.nil_append] at h2
      refine ⟨d :: b', rfl, Or.inl ⟨rfl, h2.symm, rfl⟩, ?_⟩
      intro c cs hc; cases hc
      exact h4 d b h2.symm
    | cons x xs =>
      simp only [List.cons_append, List.cons.injEq] at h2
      obtain ⟨r', e1, e2⟩ := sim_alpha h h2.2 (fun c hc => h3 c (List.mem_cons_of_mem _ hc))
      refine ⟨r', by rw [e1, h2.1]; rfl, Or.inr ⟨by simp, e2⟩, isWs_false_of e2 _ alphaWs h4⟩
  obtain ⟨r', k1, k2, k3⟩ := key
  have h1' := readWhile_eq isAsciiAlpha p' a r' h3 k3
  rw [← k1] at h1'
  unfold readCommand
  simp only
  rw [h1, h1']
  simp only
  rcases k2 with ⟨rfl, rfl, rfl⟩ | ⟨hne, hsim⟩
  · by_cases hd : d = '*'
    · subst hd
      refine ⟨['*'], b, b', ?_, ?_, h⟩
      · rw [show readStar [] ⟨p + blen [], '*' :: b⟩ = (c!"*", ⟨p + blen [] + '*'.utf8Size, b⟩) from rfl]
        simp only
        rw [if_neg (by have := star_size; simp; omega)]
        simp
      · rw [show readStar [] ⟨p' + blen [], '*' :: b'⟩ = (c!"*", ⟨p' + blen [] + '*'.utf8Size, b'⟩) from rfl]
        simp only
        rw [if_neg (by have := star_size; simp; omega)]
        simp
    · refine ⟨[d], b, b', ?_, ?_, h⟩
      · rw [show readStar [] ⟨p + blen [], d :: b⟩ = ([], ⟨p + blen [], d :: b⟩) from if_neg hd]
        simp [readChar]
      · rw [show readStar [] ⟨p' + blen [], d :: b'⟩ = ([], ⟨p' + blen [], d :: b'⟩) from if_neg hd]
        simp [readChar]
  · have hpos : 0 < blen a := by
      cases a with
      | nil => exact absurd rfl hne
      | cons x xs => have := utf8Size_pos x; simp; omega
    have nostar : ∀ (q : Nat) (r : Str), (∀ cs, r ≠ '*' :: cs) →
        readStar a ⟨q, r⟩ = (a, ⟨q, r⟩) := by
      intro q r hr
      cases r with
      | nil => rfl
      | cons c cs => exact if_neg (fun e => hr cs (by rw [e]))
    by_cases hs : ∃ cs, r = '*' :: cs
    · obtain ⟨cs, rfl⟩ := hs
      rcases sim_head hsim rfl with ⟨-, -, s', rfl, h5⟩ | ⟨h4, -⟩ | ⟨h4, -⟩
      · refine ⟨a ++ c!"*", cs, s', ?_, ?_, h5⟩
        · rw [show readStar a ⟨p + blen a, '*' :: cs⟩ =
            (a ++ c!"*", ⟨p + blen a + '*'.utf8Size, cs⟩) from rfl]
          simp only
          rw [if_neg (by omega), blen_append]
          simp [Nat.add_assoc]
        · rw [show readStar a ⟨p' + blen a, '*' :: s'⟩ =
            (a ++ c!"*", ⟨p' + blen a + '*'.utf8Size, s'⟩) from rfl]
          simp only
          rw [if_neg (by omega), blen_append]
          simp [Nat.add_assoc]
      · exact absurd h4 (by decide)
      · exact absurd h4 (by decide)
    · have hs' : ∀ cs, r' ≠ '*' :: cs := by
        rintro cs rfl
        rcases sim_first hsim with ⟨-, h6⟩ | ⟨d, s, d', s', -, h6, -, h7⟩ | ⟨d, s, s', rfl, h6, h7⟩
        · cases h6
        · cases h6; exact absurd h7 (by decide)
        · cases h6; exact hs ⟨s, rfl⟩
      refine ⟨a, r, r', ?_, ?_, hsim⟩
      · rw [nostar _ r (fun cs h => hs ⟨cs, h⟩)]
        simp only
        rw [if_neg (by omega)]
      · rw [nostar _ r' hs']
        simp only
        rw [if_neg (by omega)]

theorem skipWhitespace_sim {l l' : Lexer} (h : Sim l.rest l'.rest) :
    Sim l.skipWhitespace.2.rest l'.skipWhitespace.2.rest ∧
    (l.skipWhitespace.1.isSome = l'.skipWhitespace.1.isSome) := by
  obtain ⟨w, b, h1, h2, h3, h4, h5⟩ := skipWhitespace_spec l
  obtain ⟨w', b', e1, e2, e3, e4, e5⟩ := sim_ws h h1 h2 h3
  obtain ⟨v, c, f1, f2, f3, f4, f5⟩ := skipWhitespace_spec l'
  have huniq : w' = v ∧ b' = c := by
    have g1 := readWhile_eq isAsciiWs 0 w' b' e2 e3
    have g2 := readWhile_eq isAsciiWs 0 v c f2 f3
    rw [← e1] at g1
    rw [← f1, g1] at g2
    simp at g2
    exact ⟨g2.1, g2.2.2⟩
  obtain ⟨rfl, rfl⟩ := huniq
  rw [h4, f4]
  refine ⟨e5, ?_⟩
  rcases h5 with ⟨rfl, h5⟩ | ⟨x, xs, rfl, h5⟩ <;> rcases f5 with ⟨rfl, f5⟩ | ⟨y, ys, rfl, f5⟩ <;>
    simp_all

theorem isEnvChar_cases (c : Char) : isEnvChar c = true →
    (isAsciiWs c = true) ∨ (isAsciiWs c = false ∧ c ≠ '%' ∧ c ≠ '\\') := by
  intro h
  cases hw : isAsciiWs c with
  | true => exact Or.inl rfl
  | false =>
    refine Or.inr ⟨rfl, ?_, ?_⟩
    · rintro rfl; exact absurd h (by decide)
    · rintro rfl; exact absurd h (by decide)

/-- The characters of an environment name: the same up to whitespace. -/
theorem sim_env {r r' a b : Str} (h : Sim r r') (hr : r = a ++ b) (ha : ∀ c ∈ a, isEnvChar c = true)
    (hb : ∀ c cs, b = c :: cs → isEnvChar c = false) :
    ∃ a' b', r' = a' ++ b' ∧ (∀ c ∈ a', isEnvChar c = true) ∧
      (∀ c cs, b' = c :: cs → isEnvChar c = false) ∧
      a.filter (fun c => !isAsciiWs c) = a'.filter (fun c => !isAsciiWs c) ∧
      (a.any isAsciiWs = a'.any isAsciiWs) ∧ Sim b b' := by
  have hwenv : ∀ c, isAsciiWs c = true → isEnvChar c = true := by
    intro c hc; simp [isEnvChar, hc]
  have stop : ∀ {c : Char} {s s' : Str}, isEnvChar c = false → Sim (c :: s) (c :: s') → a = [] → b = c :: s →
      ∃ a' b', c :: s' = a' ++ b' ∧ (∀ c ∈ a', isEnvChar c = true) ∧
      (∀ c cs, b' = c :: cs → isEnvChar c = false) ∧
      a.filter (fun c => !isAsciiWs c) = a'.filter (fun c => !isAsciiWs c) ∧
      (a.any isAsciiWs = a'.any isAsciiWs) ∧ Sim b b' := by
    rintro c s s' hc hsim rfl rfl
    exact ⟨[], c :: s', rfl, by simp, by intro x xs hx; cases hx; exact hc, rfl, rfl, hsim⟩
  have nilOf : ∀ {c : Char} {s : Str}, isEnvChar c = false → c :: s = a ++ b → a = [] ∧ b = c :: s := by
    intro c s hc hr
    cases a with
    | nil => exact ⟨rfl, by simpa using hr.symm⟩
    | cons x xs =>
      simp at hr
      have := ha x (List.mem_cons_self ..)
      rw [← hr.1, hc] at this; cases this
  induction h generalizing a b with
  | nil =>
    have : a = [] ∧ b = [] := by
      cases a with
      | nil => exact ⟨rfl, by simpa using hr.symm⟩
      | cons x xs => simp at hr
    obtain ⟨rfl, rfl⟩ := this
    exact ⟨[], [], rfl, by simp, by simp, rfl, rfl, .nil⟩
  | char c s s' h1 h2 h3 h4 ih =>
    cases hc : isEnvChar c with
    | false =>
      obtain ⟨e1, e2⟩ := nilOf hc hr
      exact stop hc (.char c s s' h1 h2 h3 h4) e1 e2
    | true =>
      cases a with
      | nil =>
        simp only [List.nil_append] at hr
        have := hb c s hr.symm
        rw [hc] at this; cases this
      | cons x xs =>
        simp only [List.cons_append, List.cons.injEq] at hr
        obtain ⟨rfl, hs⟩ := hr
        obtain ⟨a', b', e1, e2, e3, e4, e5, e6⟩ := ih hs (fun y hy => ha y (List.mem_cons_of_mem _ hy)) hb
          (by
            rintro d t t' hd hsim rfl rfl
            exact ⟨[], d :: t', rfl, by simp, by intro x xs hx; cases hx; exact hd, rfl, rfl, hsim⟩)
          (by
            intro d t hd hr
            cases xs with
            | nil => exact ⟨rfl, by simpa using hr.symm⟩
            | cons y ys =>
              simp at hr
              have := ha y (by simp)
              rw [← hr.1, hd] at this; cases this)
        refine ⟨c :: a', b', by rw [e1]; rfl, ?_, e3, ?_, ?_, e6⟩
        · intro y hy
          rcases List.mem_cons.1 hy with rfl | hy
          · exact hc
          · exact e2 y hy
        · simp only [List.filter_cons, e4]
        · simp only [List.any_cons, e5]
  | ws u u' s s' h1 h2 h3 h4 h5 ih =>
    have : ∃ a2, a = u ++ a2 ∧ s = a2 ++ b := by
      clear ih h1 stop nilOf
      induction u generalizing a with
      | nil => exact ⟨a, rfl, by simpa using hr⟩
      | cons x xs ihu =>
        cases a with
        | nil =>
          simp only [List.cons_append, List.nil_append] at hr
          have := hb x _ hr.symm
          rw [hwenv x (h3 x (List.mem_cons_self ..))] at this; cases this
        | cons y ys =>
          simp only [List.cons_append, List.cons.injEq] at hr
          obtain ⟨w2, e1, e2⟩ := ihu (fun c hc => h3 c (List.mem_cons_of_mem _ hc)) hr.2
            (fun c hc => ha c (List.mem_cons_of_mem _ hc))
          exact ⟨w2, by rw [hr.1, e1]; rfl, e2⟩
    obtain ⟨a2, rfl, hs⟩ := this
    obtain ⟨a', b', e1, e2, e3, e4, e5, e6⟩ := ih hs (fun y hy => ha y (List.mem_append_right _ hy)) hb
      (by
        rintro d t t' hd hsim rfl rfl
        exact ⟨[], d :: t', rfl, by simp, by intro x xs hx; cases hx; exact hd, rfl, rfl, hsim⟩)
      (by
        intro d t hd hr
        cases a2 with
        | nil => exact ⟨rfl, by simpa using hr.symm⟩
        | cons y ys =>
          simp at hr
          have := ha y (by simp)
          rw [← hr.1, hd] at this; cases this)
    have fil : ∀ {v : Str}, (∀ c ∈ v, isAsciiWs c = true) → v.filter (fun c => !isAsciiWs c) = [] := by
      intro v hv
      rw [List.filter_eq_nil_iff]
      intro c hc; simp [hv c hc]
    have anyT : ∀ {v : Str}, v ≠ [] → (∀ c ∈ v, isAsciiWs c = true) → v.any isAsciiWs = true := by
      intro v hne hv
      cases v with
      | nil => exact absurd rfl hne
      | cons x xs => simp [hv x (List.mem_cons_self ..)]
    refine ⟨u' ++ a', b', by rw [e1]; simp, ?_, e3, ?_, ?_, e6⟩
    · intro y hy
      rcases List.mem_append.1 hy with hy | hy
      · exact hwenv y (h4 y hy)
      · exact e2 y hy
    · rw [List.filter_append, List.filter_append, fil h3, fil h4, e4]
    · rw [List.any_append, List.any_append, anyT h1 h3, anyT h2 h4]; rfl
  | comment t t' s s' h1 h2 h3 ih =>
    obtain ⟨e1, e2⟩ := nilOf (by decide) hr
    exact stop (by decide) (.comment t t' s s' h1 h2 h3) e1 e2
  | lastComment t t' h1 h2 =>
    obtain ⟨e1, e2⟩ := nilOf (by decide) hr
    exact stop (by decide) (.lastComment t t' h1 h2) e1 e2
  | escaped c s s' h1 ih =>
    obtain ⟨e1, e2⟩ := nilOf (by decide) hr
    exact stop (by decide) (.escaped c s s' h1) e1 e2
  | lastBackslash =>
    obtain ⟨e1, e2⟩ := nilOf (by decide) hr
    exact stop (by decide) .lastBackslash e1 e2

theorem env_no_ws : environments.all (fun e => !e.1.any isAsciiWs) = true := by decide

theorem fromStr_ws {n : Str} (h : n.any isAsciiWs = true) : Env.fromStr n = none := by
  cases hl : Env.fromStr n with
  | none => rfl
  | some e =>
    exfalso
    unfold Env.fromStr at hl
    have hmem : ∀ (l : List (Str × Env)), l.lookup n = some e → (n, e) ∈ l := by
      intro l
      induction l with
      | nil => simp
      | cons x xs ih =>
        obtain ⟨k, v⟩ := x
        rw [List.lookup_cons]
        split
        · rename_i hk
          intro hv; cases hv
          have : n = k := by simpa using hk
          subst this; exact List.mem_cons_self ..
        · intro hv; exact List.mem_cons_of_mem _ (ih hv)
    have := List.all_eq_true.1 env_no_ws _ (hmem _ hl)
    simp [h] at this

theorem filter_ws_eq {a a' : Str} (h : a.filter (fun c => !isAsciiWs c) = a'.filter (fun c => !isAsciiWs c))
    (h1 : a.any isAsciiWs = false) (h2 : a'.any isAsciiWs = false) : a = a' := by
  have : ∀ {v : Str}, v.any isAsciiWs = false → v.filter (fun c => !isAsciiWs c) = v := by
    intro v hv
    rw [List.filter_eq_self]
    intro c hc
    rw [List.any_eq_false] at hv
    simpa using hv c hc
  rw [this h1, this h2] at h
  exact h

/-- The results of two reads correspond. -/
def ResSim : Except LatexError (LexerOutput × Lexer) → Except LatexError (LexerOutput × Lexer) → Prop
  | .ok (o, l), .ok (o', l') => erase o = erase o' ∧ Sim l.rest l'.rest
  | .error e, .error e' => eraseErr e.kind = eraseErr e'.kind
  | _, _ => False

theorem readEnvName_char {p : Nat} {c : Char} {s : Str} (hc : c ≠ '{') :
    readEnvName ⟨p, c :: s⟩ = if isAsciiAlpha c || c == '*' then .ok ([c], p + c.utf8Size, ⟨p + c.utf8Size, s⟩)
      else .error (some c, ⟨p, p + c.utf8Size⟩) := by
  unfold readEnvName
  simp only [readChar]

theorem readEnvName_group {p : Nat} {a b : Str} (ha : ∀ c ∈ a, isEnvChar c = true)
    (hb : ∀ c cs, b = c :: cs → isEnvChar c = false) :
    readEnvName ⟨p, '{' :: (a ++ b)⟩ = match b with
      | [] => .error (none, ⟨p + 1 + blen a, p + 1 + blen a⟩)
      | d :: b => if d = '}' then .ok (a, p + 1 + blen a + 1, ⟨p + 1 + blen a + 1, b⟩)
        else .error (some d, ⟨p + 1 + blen a, p + 1 + blen a + d.utf8Size⟩) := by
  unfold readEnvName
  simp only [readChar]
  rw [readWhile_eq isEnvChar _ a b ha hb]
  cases b with
  | nil => simp [lbrace_size]
  | cons d b =>
    simp only
    by_cases hd : d = '}'
    · subst hd; simp [lbrace_size, rbrace_size]
    · rw [if_neg hd]
      split
      · rename_i heq; simp at heq; exact absurd heq.1.2 hd
      · rename_i heq
        simp only [Prod.mk.injEq, Option.some.injEq] at heq
        obtain ⟨⟨rfl, rfl⟩, rfl⟩ := heq
        simp [lbrace_size]
      · rename_i heq; simp at heq

theorem envMarker_sim {l l' : Lexer} (h : Sim l.rest l'.rest) (sp sp' : Span) (mk : Env → Token) :
    ResSim (l.envMarker sp mk) (l'.envMarker sp' mk) := by
  unfold envMarker
  have h0 := (skipWhitespace_sim h).1
  have hw : ∀ c cs, l.skipWhitespace.2.rest = c :: cs → isAsciiWs c = false := by
    obtain ⟨w, b, h1, h2, h3, h4, h5⟩ := skipWhitespace_spec l
    rw [h4]; exact h3
  revert h0 hw
  generalize l.skipWhitespace.2 = k
  generalize l'.skipWhitespace.2 = k'
  obtain ⟨p, r⟩ := k
  obtain ⟨p', r'⟩ := k'
  intro h0 hw
  simp only at h0 hw
  rcases sim_first h0 with ⟨rfl, rfl⟩ | ⟨c, s, c', s', rfl, rfl, h3, -⟩ | ⟨c, s, s', rfl, rfl, h3⟩
  · exact rfl
  · have := hw c s rfl
    rw [h3] at this; cases this
  · by_cases hc : c = '{'
    · subst hc
      rcases sim_head h0 rfl with ⟨-, -, s'', heq, hsim⟩ | ⟨h4, -⟩ | ⟨h4, -⟩
      · cases heq
        obtain ⟨a, b, -, rfl, e3, e4⟩ := readWhile_spec isEnvChar 0 s
        obtain ⟨a', b', rfl, f2, f3, f4, f5, f6⟩ := sim_env hsim rfl e3 e4
        simp only
        rw [readEnvName_group e3 e4, readEnvName_group f2 f3]
        rcases sim_first f6 with ⟨rfl, rfl⟩ | ⟨d, s, d', s', rfl, rfl, g1, -⟩ | ⟨d, s, s', rfl, rfl, g1⟩
        · exact rfl
        · have := e4 d s rfl
          simp [isEnvChar, g1] at this
        · simp only
          by_cases hd : d = '}'
          · subst hd
            rw [if_pos rfl, if_pos rfl]
            simp only
            rcases sim_head f6 rfl with ⟨-, -, s'', heq, hsim'⟩ | ⟨h4, -⟩ | ⟨h4, -⟩
            · cases heq
              cases hany : a.any isAsciiWs with
              | true =>
                rw [fromStr_ws hany, fromStr_ws (f5 ▸ hany)]
                exact congrArg LatexErrKind.unknownEnvironment f4
              | false =>
                have := filter_ws_eq f4 hany (f5 ▸ hany)
                subst this
                cases Env.fromStr a with
                | none => exact rfl
                | some e => exact ⟨rfl, hsim'⟩
            · exact absurd h4 (by decide)
            · exact absurd h4 (by decide)
          · rw [if_neg hd, if_neg hd]
            exact rfl
      · exact absurd h4 (by decide)
      · exact absurd h4 (by decide)
    · simp only
      rw [readEnvName_char hc, readEnvName_char hc]
      by_cases ha : (isAsciiAlpha c || c == '*') = true
      · rw [if_pos ha, if_pos ha]
        simp only
        cases Env.fromStr [c] with
        | none => exact rfl
        | some e =>
          rcases sim_head h0 h3 with ⟨-, -, s'', heq, hsim⟩ | ⟨rfl, -⟩ | ⟨rfl, -⟩
          · cases heq; exact ⟨rfl, hsim⟩
          · exact absurd ha (by decide)
          · exact absurd ha (by decide)
      · rw [if_neg ha, if_neg ha]
        exact rfl

theorem paramToken_sim {l l' : Lexer} (h : Sim l.rest l'.rest) (p p' : Nat) :
    ResSim (l.paramToken p) (l'.paramToken p') := by
  have hws : ∀ c, isAsciiWs c = true → isAsciiDigit c = false := by
    intro c hw
    simp only [isAsciiWs, Bool.or_eq_true, beq_iff_eq] at hw
    rcases hw with (((rfl | rfl) | rfl) | rfl) | rfl <;> rfl
  unfold paramToken
  rcases sim_first h with ⟨h1, h2⟩ | ⟨c, s, c', s', h1, h2, h3, h4⟩ | ⟨c, s, s', h1, h2, h3⟩
  · rw [h1, h2]; exact rfl
  · rw [h1, h2]; simp [hws _ h3, hws _ h4]; exact rfl
  · rw [h1, h2]
    simp only
    by_cases hd : isAsciiDigit c = true
    · rw [if_pos hd, if_pos hd]
      split
      · refine ⟨rfl, ?_⟩
        rw [h1, h2] at h
        simp only [readChar, h1, h2]
        rcases sim_head h h3 with ⟨-, -, s'', heq, hsim⟩ | ⟨rfl, -⟩ | ⟨rfl, -⟩
        · cases heq; exact hsim
        · exact absurd hd (by decide)
        · exact absurd hd (by decide)
      · exact rfl
    · rw [if_neg hd, if_neg hd]; exact rfl

theorem parseEnvMarker_sim {l l' : Lexer} (h : Sim l.rest l'.rest) (sp sp' : Span) (cmd : Str) :
    ResSim (l.parseEnvMarker sp cmd) (l'.parseEnvMarker sp' cmd) := by
  unfold parseEnvMarker
  split
  · exact envMarker_sim h ..
  · split
    · exact envMarker_sim h ..
    · exact ⟨rfl, h⟩

theorem noNl {t : Str} : '\n' ∉ t → ∀ c ∈ t, (c != '\n') = true := by
  intro h c hc
  simp only [bne_iff_ne, ne_eq]
  rintro rfl; exact h hc

theorem skipComment_line {p : Nat} {t b : Str} (h : '\n' ∉ t) :
    skipComment ⟨p, t ++ '\n' :: b⟩ = (skipWhitespace ⟨p + blen t + 1, b⟩).2 := by
  unfold skipComment
  simp only
  rw [readWhile_eq _ _ t ('\n' :: b) (noNl h) (by intro c cs hc; cases hc; rfl)]
  rfl

theorem skipComment_last {p : Nat} {t : Str} (h : '\n' ∉ t) :
    skipComment ⟨p, t⟩ = ⟨p + blen t, []⟩ := by
  unfold skipComment
  simp only
  have := readWhile_eq (· != '\n') p t [] (noNl h) (by simp)
  rw [List.append_nil] at this
  rw [this]; rfl

theorem nextTokenFuel_sim (n m : Nat) (l l' : Lexer) (h : Sim l.rest l'.rest)
    (hn : l.rest.length < n) (hm : l'.rest.length < m) :
    ResSim (nextTokenFuel n l) (nextTokenFuel m l') := by
  induction n generalizing m l l' with
  | zero => omega
  | succ n ih =>
    cases m with
    | zero => omega
    | succ m =>
      unfold nextTokenFuel
      have h0 := skipWhitespace_sim h
      obtain ⟨w, b, h1, h2, h3, h4, h5⟩ := skipWhitespace_spec l
      obtain ⟨w', b', h1', h2', h3', h4', h5'⟩ := skipWhitespace_spec l'
      rcases h5 with ⟨rfl, h5⟩ | ⟨x, xs, rfl, h5⟩ <;> rcases h5' with ⟨rfl, h5'⟩ | ⟨y, ys, rfl, h5'⟩
      · have e : l.skipWhitespace = (none, ⟨l.pos, b⟩) := by
          rw [← h5, show (⟨l.pos, b⟩ : Lexer) = l.skipWhitespace.2 by rw [h4]; simp]
        have e' : l'.skipWhitespace = (none, ⟨l'.pos, b'⟩) := by
          rw [← h5', show (⟨l'.pos, b'⟩ : Lexer) = l'.skipWhitespace.2 by rw [h4']; simp]
        rw [e, e'] at h0
        rw [e, e']
        simp only at h0 ⊢
        simp only [List.nil_append] at h1 h1'
        have hsim := h0.1
        cases b with
        | nil =>
          have := sim_nil hsim
          subst this
          exact ⟨rfl, .nil⟩
        | cons c s =>
          have hc := h3 c s rfl
          rw [h1] at hn
          rw [h1'] at hm
          rcases sim_head hsim hc with ⟨c1, c2, s', rfl, hs⟩ |
              ⟨rfl, ⟨t, t', b, b', rfl, rfl, ht, ht', hb⟩ | ⟨t', rfl, ht, ht'⟩⟩ |
              ⟨rfl, ⟨rfl, rfl⟩ | ⟨d, b, b', rfl, rfl, hb⟩⟩
          · simp only [readChar]
            rw [if_neg c1, if_neg c1]
            unfold tokenAt
            split
            · exact rfl
            · split
              · exact paramToken_sim hs ..
              · exact ⟨rfl, hs⟩
          · simp only [readChar]
            rw [if_pos trivial, if_pos trivial, skipComment_line ht, skipComment_line ht']
            have len : ∀ (k : Lexer), k.skipWhitespace.2.rest.length ≤ k.rest.length := by
              intro k
              obtain ⟨w, b, g1, -, -, g4, -⟩ := skipWhitespace_spec k
              rw [g4, g1]; simp
            apply ih
            · exact (skipWhitespace_sim hb).1
            · refine Nat.lt_of_le_of_lt (len _) ?_
              simp at hn ⊢; omega
            · refine Nat.lt_of_le_of_lt (len _) ?_
              simp at hm ⊢; omega
          · simp only [readChar]
            rw [if_pos trivial, if_pos trivial, skipComment_last ht, skipComment_last ht']
            simp at hn hm
            exact ih m _ _ .nil (by simp; omega) (by simp; omega)
          · simp only [readChar]
            rw [if_neg (by decide), if_neg (by decide)]
            simp [tokenAt, readCommand, readWhile, readStar, readChar, skipWhitespace, parseEnvMarker,
              ResSim, erase]
            exact .nil
          · simp only [readChar]
            rw [if_neg (by decide), if_neg (by decide)]
            unfold tokenAt
            rw [if_neg (by decide), if_neg (by decide), if_pos rfl, if_neg (by decide), if_neg (by decide),
              if_pos rfl]
            obtain ⟨name, r, r', g1, g2, g3⟩ := readCommand_sim (d := d) hb (l.pos + '\\'.utf8Size)
              (l'.pos + '\\'.utf8Size)
            rw [g1, g2]
            simp only
            exact parseEnvMarker_sim (skipWhitespace_sim g3).1 ..
      · exfalso; have := h0.2; rw [h5, h5'] at this; cases this
      · exfalso; have := h0.2; rw [h5, h5'] at this; cases this
      · generalize hk : l.skipWhitespace = k at *
        generalize hk' : l'.skipWhitespace = k' at *
        obtain ⟨k1, k2⟩ := k
        obtain ⟨k1', k2'⟩ := k'
        simp only at h5 h5'
        subst h5 h5'
        exact ⟨rfl, h0.1⟩

theorem isEoi_erase (o : LexerOutput) : isEoi (erase o) = isEoi o := by
  cases o with
  | token t => obtain ⟨t, s⟩ := t; cases t <;> rfl
  | commandName => rfl

/-- The same tokens, if as many are read as needed. -/
theorem readTokens_sim (n m : Nat) (l l' : Lexer) (h : Sim l.rest l'.rest)
    (hn : l.rest.length < n) (hm : l'.rest.length < m) :
    (readTokens n l).1.map erase = (readTokens m l').1.map erase ∧
    (readTokens n l).2.map (fun e => eraseErr e.kind) = (readTokens m l').2.map (fun e => eraseErr e.kind) := by
  induction n generalizing m l l' with
  | zero => omega
  | succ n ih =>
    cases m with
    | zero => omega
    | succ m =>
      unfold readTokens
      have h0 : ResSim l.nextToken l'.nextToken := nextTokenFuel_sim _ _ l l' h (by omega) (by omega)
      cases hr : l.nextToken with
      | error e =>
        cases hr' : l'.nextToken with
        | error e' => rw [hr, hr'] at h0; exact ⟨rfl, congrArg some h0⟩
        | ok x => rw [hr, hr'] at h0; exact h0.elim
      | ok x =>
        cases hr' : l'.nextToken with
        | error e' => rw [hr, hr'] at h0; exact h0.elim
        | ok x' =>
          obtain ⟨o, k⟩ := x
          obtain ⟨o', k'⟩ := x'
          rw [hr, hr'] at h0
          obtain ⟨e1, e2⟩ := h0
          simp only
          have e3 : isEoi o = isEoi o' := by rw [← isEoi_erase o, ← isEoi_erase o', e1]
          cases hE : isEoi o with
          | true =>
            rw [← e3, hE]
            simp [e1]
          | false =>
            rw [← e3, hE]
            simp only [Bool.false_eq_true, if_false, List.map_cons, e1]
            have short : ∀ {l : Lexer} {o k}, l.nextToken = .ok (o, k) → isEoi o = false →
                k.rest.length < l.rest.length := by
              intro l o k hr hE
              obtain ⟨gap, text, after, hk⟩ := nextToken_ok hr
              have := hk.progress hE
              rw [hk.rest]
              cases text with
              | nil => exact absurd rfl this
              | cons c cs => simp; omega
            have := short hr hE
            have := short hr' (e3 ▸ hE)
            obtain ⟨i1, i2⟩ := ih m k k' e2 (by omega) (by omega)
            exact ⟨by rw [i1], i2⟩

end Lexer'
end Verif

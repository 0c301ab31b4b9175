import Verif.Lemmas.Lengths
/-! Helper lemmas about column specifications. -/
namespace Verif
open Model Spec

/-- Characters that may occur in a column specification. -/
def colCharOk (c : Char) : Bool :=
  c == 'l' || c == 'c' || c == 'r' || c == '|' || c == ':' || isAsciiWs c

/-- What has been read so far. -/
def showState (st : ColState) : Str := showSpec ⟨st.borderLeft, st.revSpec.reverse⟩

/-- Whether a bar may follow: after a border or a separate line. -/
def afterBar (b : Bool) : List ColumnSpecEntry → Bool
  | [] => b
  | .withContent _ r :: xs => afterBar r.isSome xs
  | .onlyLine _ :: xs => afterBar true xs

theorem normalFrom_append (b : Bool) (xs ys : List ColumnSpecEntry) :
    NormalFrom b (xs ++ ys) ↔ NormalFrom b xs ∧ NormalFrom (afterBar b xs) ys := by
  induction xs generalizing b with
  | nil => simp [NormalFrom, afterBar]
  | cons x xs ih =>
    cases x with
    | withContent a r => simp only [List.cons_append, NormalFrom, ih, afterBar]
    | onlyLine l => simp only [List.cons_append, NormalFrom, ih, and_assoc, afterBar]

theorem afterBar_append (b : Bool) (xs ys : List ColumnSpecEntry) :
    afterBar b (xs ++ ys) = afterBar (afterBar b xs) ys := by
  induction xs generalizing b with
  | nil => rfl
  | cons x xs ih => cases x <;> simp only [List.cons_append, afterBar, ih]

/-- Invariant of the loop. -/
structure ColInv (st : ColState) (read : Str) : Prop where
  shown : showState st = read.filter (fun c => !isAsciiWs c)
  normal : NormalFrom st.borderLeft.isSome st.revSpec.reverse
  content : st.hasContent = true ↔ ∃ a b, ColumnSpecEntry.withContent a b ∈ st.revSpec
  letters : st.hasContent = true ↔ ∃ c ∈ read, c = 'l' ∨ c = 'c' ∨ c = 'r'

theorem colStep_inv {st st' : ColState} {read : Str} {ch : Char} (hi : ColInv st read)
    (h : colStep st ch = some st') : ColInv st' (read ++ [ch]) := by
  obtain ⟨h1, h2, h3, h4⟩ := hi
  unfold colStep at h
  split at h
  · rename_i hc
    simp only [Bool.or_eq_true, beq_iff_eq] at hc
    simp only [Option.some.injEq] at h
    subst h
    have hws : isAsciiWs ch = false := by rcases hc with (rfl | rfl) | rfl <;> decide
    refine ⟨?_, ?_, ?_, ?_⟩
    · rw [List.filter_append, ← h1]
      simp only [showState, showSpec, List.reverse_cons, List.flatMap_append, List.flatMap_cons,
        List.flatMap_nil, List.append_nil, showEntry, barOpt, List.filter_cons, hws, List.filter_nil,
        ← List.append_assoc]
      rcases hc with (rfl | rfl) | rfl <;> rfl
    · simp only [List.reverse_cons]
      rw [normalFrom_append]
      exact ⟨h2, by simp [NormalFrom]⟩
    · simp only [true_iff]; exact ⟨_, none, List.mem_cons_self⟩
    · simp only [true_iff]
      exact ⟨ch, by simp, by rcases hc with (rfl | rfl) | rfl <;> simp⟩
  split at h
  · rename_i hnc hc
    simp only [Bool.or_eq_true, beq_iff_eq] at hc
    have hws : isAsciiWs ch = false := by rcases hc with rfl | rfl <;> decide
    have hbar : bar (if (ch == '|') = true then LineType.solid else LineType.dashed) = ch := by
      rcases hc with rfl | rfl <;> decide
    have hl : ∀ (hb : Bool), (hb = true ↔ ∃ c ∈ read, c = 'l' ∨ c = 'c' ∨ c = 'r') →
        (hb = true ↔ ∃ c ∈ read ++ [ch], c = 'l' ∨ c = 'c' ∨ c = 'r') := by
      intro hb hh
      rw [hh]
      constructor
      · rintro ⟨c, hc, h⟩; exact ⟨c, by simp [hc], h⟩
      · rintro ⟨c, hm, hx⟩
        simp only [List.mem_append, List.mem_singleton] at hm
        rcases hm with hm | rfl
        · exact ⟨c, hm, hx⟩
        · clear h; rcases hc with rfl | rfl <;> exact absurd hx (by decide)
    simp only at h
    generalize (if (ch == '|') = true then LineType.solid else LineType.dashed) = lt at h hbar
    split at h
    · rename_i a rest hr
      simp only [Option.some.injEq] at h
      subst h
      refine ⟨?_, ?_, ?_, hl _ h4⟩
      · rw [List.filter_append, ← h1]
        simp [showState, showSpec, hr, List.flatMap_append, showEntry, barOpt, hws, hbar]
      · simp only [hr, List.reverse_cons] at h2 ⊢
        rw [normalFrom_append] at h2 ⊢
        exact ⟨h2.1, by simp [NormalFrom]⟩
      · rw [h3, hr]; constructor
        · rintro _; exact ⟨a, some lt, by simp⟩
        · rintro _; exact ⟨a, none, by simp⟩
    · rename_i last rest hr hne
      simp only [Option.some.injEq] at h
      subst h
      refine ⟨?_, ?_, ?_, hl _ h4⟩
      · rw [List.filter_append, ← h1]
        simp [showState, showSpec, hne, List.flatMap_append, showEntry, hws, hbar]
      · simp only [hne] at h2
        simp only [List.reverse_cons] at h2 ⊢
        rw [normalFrom_append]
        refine ⟨h2, ?_⟩
        rw [afterBar_append]
        cases last with
        | withContent a b =>
          cases b with
          | none => exact absurd rfl (hr a)
          | some b => simp [NormalFrom, afterBar]
        | onlyLine l => simp [NormalFrom, afterBar]
      · rw [h3, hne]; constructor
        · rintro ⟨a, b, hm⟩; exact ⟨a, b, by simp at hm ⊢; exact hm⟩
        · rintro ⟨a, b, hm⟩; exact ⟨a, b, by simp at hm ⊢; exact hm⟩
    · rename_i hr
      split at h
      · rename_i hb
        simp only [Option.some.injEq] at h
        subst h
        refine ⟨?_, ?_, ?_, hl _ h4⟩
        · rw [List.filter_append, ← h1]
          simp [showState, showSpec, hr, hb, barOpt, hws, hbar]
        · simp [hr, NormalFrom]
        · simpa [hr] using h3
      · rename_i l0 hb
        simp only [Option.some.injEq] at h
        subst h
        refine ⟨?_, ?_, ?_, hl _ h4⟩
        · rw [List.filter_append, ← h1]
          simp [showState, showSpec, hr, hb, barOpt, hws, hbar, showEntry]
        · simp [hb, NormalFrom]
        · rw [h3, hr]; simp
  split at h
  · rename_i hn1 hn2 hws
    simp only [Option.some.injEq] at h
    subst h
    refine ⟨?_, h2, h3, ?_⟩
    · rw [List.filter_append, ← h1]; simp [hws]
    · rw [h4]
      constructor
      · rintro ⟨c, hc, h⟩; exact ⟨c, by simp [hc], h⟩
      · rintro ⟨c, hm, h⟩
        simp only [List.mem_append, List.mem_singleton] at hm
        rcases hm with hm | rfl
        · exact ⟨c, hm, h⟩
        · simp [Bool.or_eq_true] at hn1; exact absurd h (by simp [hn1])
  · simp at h

theorem colStep_isSome (st : ColState) (ch : Char) :
    (colStep st ch).isSome = colCharOk ch := by
  unfold colStep colCharOk
  split
  · rename_i h; simp only [Bool.or_eq_true, beq_iff_eq] at h
    rcases h with (rfl | rfl) | rfl <;> simp
  split
  · rename_i h; simp only [Bool.or_eq_true, beq_iff_eq] at h
    have : (ch == 'l' || ch == 'c' || ch == 'r' || ch == '|' || ch == ':' || isAsciiWs ch) = true := by
      rcases h with rfl | rfl <;> decide
    rw [this]
    simp only
    split
    · rfl
    · rfl
    · split <;> rfl
  split
  · rename_i h; simp [h]
  · rename_i h1 h2 h3
    simp only [Bool.or_eq_true, beq_iff_eq, not_or] at h1 h2
    simp [h1, h2, h3]

theorem colLoop_spec (s : Str) (st : ColState) (read : Str) (hi : ColInv st read) :
    (∀ st', colLoop s st = some st' → ColInv st' (read ++ s)) ∧
    ((colLoop s st).isSome = s.all colCharOk) := by
  induction s generalizing st read with
  | nil => simp [colLoop, hi]
  | cons ch rest ih =>
    simp only [colLoop]
    have hs := colStep_isSome st ch
    cases hst : colStep st ch with
    | none => rw [hst] at hs; simp only [Option.isSome_none] at hs; simp [← hs]
    | some st1 =>
      rw [hst] at hs; simp only [Option.isSome_some] at hs
      have := ih st1 (read ++ [ch]) (colStep_inv hi hst)
      simp only [Option.bind_some, List.all_cons, ← hs, Bool.true_and]
      refine ⟨?_, this.2⟩
      intro st' h
      simpa using this.1 st' h

theorem bar_ne_letter (l : LineType) (a : ColumnAlignment) : bar l ≠ letter a := by
  cases l <;> cases a <;> decide

theorem bar_inj {l l' : LineType} (h : bar l = bar l') : l = l' := by
  revert h; cases l <;> cases l' <;> decide

theorem letter_inj {l l' : ColumnAlignment} (h : letter l = letter l') : l = l' := by
  revert h; cases l <;> cases l' <;> decide

theorem head_after {xs : List ColumnSpecEntry} (h : NormalFrom false xs) (l : LineType) (t : Str) :
    xs.flatMap showEntry ≠ bar l :: t := by
  cases xs with
  | nil => simp
  | cons x xs =>
    cases x with
    | withContent a b =>
      simp only [List.flatMap_cons, showEntry, List.cons_append, ne_eq, List.cons.injEq, not_and]
      intro h; exact absurd h.symm (bar_ne_letter l a)
    | onlyLine l => simp [NormalFrom] at h

/-- In normal form the text determines the specification. -/
theorem show_inj (xs ys : List ColumnSpecEntry) (b : Bool) (hx : NormalFrom b xs)
    (hy : NormalFrom b ys) (h : xs.flatMap showEntry = ys.flatMap showEntry) : xs = ys := by
  induction xs generalizing ys b with
  | nil =>
    cases ys with
    | nil => rfl
    | cons y ys => cases y <;> simp [showEntry] at h
  | cons x xs ih =>
    cases ys with
    | nil => cases x <;> simp [showEntry] at h
    | cons y ys =>
      cases x with
      | onlyLine l =>
        cases y with
        | onlyLine l' =>
          simp only [List.flatMap_cons, showEntry, List.cons_append, List.nil_append,
            List.cons.injEq] at h
          rw [bar_inj h.1, ih ys true hx.2 hy.2 h.2]
        | withContent a' r' =>
          simp only [List.flatMap_cons, showEntry, List.cons_append, List.nil_append,
            List.cons.injEq] at h
          exact absurd h.1 (bar_ne_letter _ _)
      | withContent a r =>
        cases y with
        | onlyLine l' =>
          simp only [List.flatMap_cons, showEntry, List.cons_append, List.nil_append,
            List.cons.injEq] at h
          exact absurd h.1.symm (bar_ne_letter _ _)
        | withContent a' r' =>
          simp only [List.flatMap_cons, showEntry, List.cons_append,
            List.cons.injEq] at h
          simp only [NormalFrom] at hx hy
          have ha := letter_inj h.1
          have h2 := h.2
          cases r with
          | none =>
            cases r' with
            | none => rw [ha, ih ys false hx hy (by simpa [barOpt] using h2)]
            | some l =>
              simp [barOpt] at h2
              exact absurd h2 (head_after (by simpa using hx) l _)
          | some l =>
            cases r' with
            | none =>
              simp [barOpt] at h2
              exact absurd h2.symm (head_after (by simpa using hy) l _)
            | some l' =>
              simp only [barOpt, List.cons_append, List.nil_append, List.cons.injEq] at h2
              rw [ha, bar_inj h2.1, ih ys true hx hy h2.2]

theorem showSpec_inj {s t : ColumnSpec} (hs : Normal s) (ht : Normal t)
    (h : showSpec s = showSpec t) : s = t := by
  obtain ⟨b, xs⟩ := s
  obtain ⟨b', ys⟩ := t
  simp only [Normal] at hs ht
  simp only [showSpec] at h
  cases b with
  | none =>
    cases b' with
    | none => rw [show_inj xs ys false hs ht (by simpa [barOpt] using h)]
    | some l => simp [barOpt] at h; exact absurd h (head_after (by simpa using hs) l _)
  | some l =>
    cases b' with
    | none => simp [barOpt] at h; exact absurd h.symm (head_after (by simpa using ht) l _)
    | some l' =>
      simp only [barOpt, List.cons_append, List.nil_append, List.cons.injEq] at h
      rw [bar_inj h.1, show_inj xs ys true hs ht h.2]

theorem colCharOk_show (spec : ColumnSpec) : ∀ c ∈ showSpec spec, colCharOk c = true := by
  have hb : ∀ l, colCharOk (bar l) = true := by intro l; cases l <;> decide
  have hl : ∀ l, colCharOk (letter l) = true := by intro l; cases l <;> decide
  have ho : ∀ o, ∀ c ∈ barOpt o, colCharOk c = true := by
    intro o c hc
    cases o with
    | none => simp [barOpt] at hc
    | some l => simp [barOpt] at hc; subst hc; exact hb l
  intro c hc
  simp only [showSpec, List.mem_append, List.mem_flatMap] at hc
  rcases hc with hc | ⟨e, _, hc⟩
  · exact ho _ c hc
  · cases e with
    | withContent a b =>
      simp only [showEntry, List.mem_cons] at hc
      rcases hc with rfl | hc
      · exact hl a
      · exact ho b c hc
    | onlyLine l => simp [showEntry] at hc; subst hc; exact hb l

theorem parseColumn_iff (s : Str) (spec : ColumnSpec) :
    parseColumnSpecification s = some spec ↔
      showSpec spec = s.filter (fun c => !isAsciiWs c) ∧ Normal spec ∧ HasContent spec := by
  have h0 : ColInv ⟨[], none, false⟩ [] :=
    ⟨rfl, by simp [NormalFrom], by simp, by simp⟩
  obtain ⟨hA, hB⟩ := colLoop_spec s ⟨[], none, false⟩ [] h0
  have fwd : ∀ spec, parseColumnSpecification s = some spec →
      showSpec spec = s.filter (fun c => !isAsciiWs c) ∧ Normal spec ∧ HasContent spec := by
    intro spec h
    unfold parseColumnSpecification at h
    split at h
    · simp at h
    rename_i st hst
    have hi := hA st hst
    split at h
    · simp at h
    rename_i hne
    simp only [Option.some.injEq] at h
    subst h
    simp only [Bool.or_eq_true, Bool.not_eq_true', not_or, Bool.not_eq_false] at hne
    refine ⟨by simpa [showState] using hi.shown, hi.normal, ?_⟩
    obtain ⟨a, b, hm⟩ := hi.content.1 hne.2
    exact ⟨a, b, by simpa using hm⟩
  constructor
  · exact fwd spec
  · rintro ⟨h1, h2, h3⟩
    -- the loop succeeds because all characters are acceptable
    have hok : s.all colCharOk = true := by
      rw [List.all_eq_true]
      intro c hc
      by_cases hw : isAsciiWs c = true
      · simp [colCharOk, hw]
      · apply colCharOk_show spec c
        rw [h1]; simp [hc, hw]
    have hsome : parseColumnSpecification s ≠ none := by
      unfold parseColumnSpecification
      rw [hok] at hB
      obtain ⟨st, hst⟩ := Option.isSome_iff_exists.mp hB
      have hi := hA st hst
      rw [hst]
      simp only
      -- there is a letter
      have hlet : st.hasContent = true := by
        rw [hi.letters]
        obtain ⟨a, b, hm⟩ := h3
        refine ⟨letter a, ?_, by cases a <;> decide⟩
        have : letter a ∈ showSpec spec := by
          simp only [showSpec, List.mem_append, List.mem_flatMap]
          exact Or.inr ⟨_, hm, by simp [showEntry]⟩
        rw [h1] at this
        simpa using (List.mem_filter.mp this).1
      obtain ⟨a, b, hm⟩ := hi.content.1 hlet
      have : st.revSpec.isEmpty = false := by
        cases h : st.revSpec with
        | nil => rw [h] at hm; simp at hm
        | cons _ _ => rfl
      simp [hlet, this]
    obtain ⟨spec', hs'⟩ := Option.ne_none_iff_exists'.mp hsome
    obtain ⟨g1, g2, _⟩ := fwd spec' hs'
    rw [hs', showSpec_inj g2 h2 (g1.trans h1.symm)]

end Verif

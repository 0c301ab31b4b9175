import Verif.Lemmas.Replace
/-! Properties C30, C31 and C33: formulas in documents. -/
namespace Verif
open Model Spec Model.Replacer

/-! ### C31 -/

/-- The windowed search over the bytes of the rest of a document gives the next delimiter, and its
byte position. (`nextDelim` reads the whole text from left to right.) -/
theorem C31_windows (r : Replacer) (opening : Bool) (s : Str) :
    r.findNextDelimiter (enc s) opening = (nextDelim r opening s).map (fun x => (x.1, blen x.2)) :=
  findNext_enc r opening s

/-- If escapes are not ignored, the text before the delimiter is the shortest text which is
followed by it. -/
theorem C31_leftmost (d : Str) (s p : Str) :
    beforeDelim false d 0 none s = some p ↔
      (∃ rest, s = p ++ d ++ rest) ∧ ∀ p' rest', s = p' ++ d ++ rest' → p.length ≤ p'.length := by
  have noPrefix : ∀ {c : Char} {s : Str}, ¬ d.isPrefixOf (c :: s) = true →
      ∀ p' rest', c :: s = p' ++ d ++ rest' → ∃ q, p' = c :: q ∧ s = q ++ d ++ rest' := by
    intro c s hp p' rest' h
    cases p' with
    | nil =>
      exfalso
      exact hp (isPrefixOf_iff.2 ⟨rest', by simpa using h.symm⟩)
    | cons x q =>
      simp only [List.cons_append, List.cons.injEq] at h
      exact ⟨q, by rw [h.1], h.2⟩
  constructor
  · intro h
    refine ⟨beforeDelim_spec _ _ _ _ _ _ h, ?_⟩
    induction s generalizing p with
    | nil =>
      intro p' rest' _
      unfold beforeDelim at h
      split at h
      · cases h; simp
      · cases h
    | cons c s ih =>
      intro p' rest' hs
      rw [beforeDelim_cons] at h
      by_cases hp : d.isPrefixOf (c :: s) = true
      · rw [if_pos ⟨rfl, hp⟩] at h
        simp at h
        subst h; simp
      · rw [if_neg (fun h => hp h.2)] at h
        simp only [Nat.zero_sub] at h
        rw [beforeDelim_prev _ (some c) none] at h
        cases hr : beforeDelim false d 0 none s with
        | none => rw [hr] at h; cases h
        | some q =>
          rw [hr] at h
          simp at h
          subst h
          obtain ⟨q', rfl, hq⟩ := noPrefix hp p' rest' hs
          simpa using ih q hr q' rest' hq
  · rintro ⟨⟨rest, hs⟩, hmin⟩
    induction s generalizing p with
    | nil =>
      have : p = [] ∧ d = [] ∧ rest = [] := by simpa using hs
      obtain ⟨rfl, rfl, rfl⟩ := this
      rfl
    | cons c s ih =>
      rw [beforeDelim_cons]
      by_cases hp : d.isPrefixOf (c :: s) = true
      · rw [if_pos ⟨rfl, hp⟩]
        obtain ⟨t, ht⟩ := isPrefixOf_iff.1 hp
        have := hmin [] t (by simpa using ht.symm)
        have : p = [] := by simpa using this
        simp [this]
      · rw [if_neg (fun h => hp h.2)]
        obtain ⟨q, rfl, hq⟩ := noPrefix hp p rest hs
        simp only [Nat.zero_sub]
        rw [beforeDelim_prev _ (some c) none, ih q ?_ hq]
        · rfl
        · intro p' rest' hp'
          have := hmin (c :: p') rest' (by rw [hp']; rfl)
          simpa using this

/-- If escapes are ignored, the delimiter found is not directly after a backslash. -/
theorem C31_not_escaped (d : Str) (hd : d ≠ []) (s p : Str) (h : beforeDelim true d 0 none s = some p) :
    p.getLast? ≠ some '\\' := by
  have key : ∀ n (s p : Str) prev, s.length ≤ n → beforeDelim true d 0 prev s = some p →
      p.getLast?.or prev ≠ some '\\' := by
    intro n
    induction n with
    | zero =>
      intro s p prev hs h
      have : s = [] := by simpa using hs
      subst this
      simp [beforeDelim, hd] at h
    | succ n ih =>
      intro s p prev hs h
      rw [beforeDelim_escape d hd] at h
      cases hp : beforeDelim false d 0 none s with
      | none => rw [hp] at h; cases h
      | some q =>
        rw [hp] at h
        simp only at h
        split at h
        · obtain ⟨rest, hrest⟩ := beforeDelim_spec _ _ _ _ _ _ hp
          have hdrop : s.drop (q.length + d.length) = rest := by
            rw [hrest, ← List.length_append, List.drop_left]
          rw [hdrop] at h
          have hl : 0 < d.length := List.length_pos_iff.2 hd
          cases hr : beforeDelim true d 0 d.getLast? rest with
          | none => rw [hr] at h; cases h
          | some q' =>
            rw [hr] at h
            simp at h
            subst h
            have := ih rest q' d.getLast? (by rw [hrest] at hs; simp at hs; omega) hr
            rw [List.getLast?_append, List.getLast?_append]
            cases hq' : q'.getLast? with
            | some z => rw [hq'] at this; simpa using this
            | none =>
              rw [hq'] at this
              cases hd' : d.getLast? with
              | none => simp at hd'; exact absurd hd' hd
              | some z => rw [hd'] at this; simpa using this
        · cases h
          assumption
  have := key s.length s p none (Nat.le_refl _) h
  simpa using this

/-! ### C30 and C33 -/

theorem delim_len_true (r : Replacer) (t : MathDisplay) : r.openingLen t = blen (delim r true t) := by
  cases t <;> rfl
theorem delim_len_false (r : Replacer) (t : MathDisplay) : r.closingLen t = blen (delim r false t) := by
  cases t <;> rfl

/-- An empty opening delimiter is found everywhere. -/
theorem nextDelim_none {r : Replacer} {s : Str} (h : nextDelim r true s = none) :
    r.inlineOpen ≠ [] ∧ r.blockOpen ≠ [] := by
  have e : ∀ ig, beforeDelim ig [] 0 none s = some [] := by intro ig; cases s <;> simp [beforeDelim]
  unfold nextDelim at h
  constructor
  · intro h1
    simp only [delim, h1, e] at h
    split at h
    · split at h <;> cases h
    · cases h
    · cases h
    · rename_i h2 h3; cases h2
  · intro h1
    simp only [delim, h1, e] at h
    split at h
    · split at h <;> cases h
    · cases h
    · cases h
    · rename_i h2 h3; cases h3

theorem prepend_match {E : Type} (a b : Str) (res : ReplaceResult E) :
    (match (match res with | .ok out => ReplaceResult.ok (b ++ out) | res => res) with
      | .ok out => ReplaceResult.ok (a ++ out)
      | res => res) = (match res with | .ok out => ReplaceResult.ok (a ++ b ++ out) | res => res) := by
  cases res <;> simp

/-- The loop, from a place in the document. -/
theorem replaceLoop_processed {S E : Type} (r : Replacer) (f : S → Str → MathDisplay → S × Except E Str)
    (fuel : Nat) (before rest result : Str) (st : S) (hf : blen rest < fuel)
    (hne : rest ≠ [] ∨ (r.inlineOpen ≠ [] ∧ r.blockOpen ≠ [])) :
    ∃ res, Processed r f (blen before) st rest (r.replaceLoop f (before ++ rest) fuel (blen before) result st).1 res ∧
      (r.replaceLoop f (before ++ rest) fuel (blen before) result st).2 =
        (match res with | .ok out => .ok (result ++ out) | res => res) := by
  induction fuel generalizing before rest result st with
  | zero => omega
  | succ fuel ih =>
    unfold Replacer.replaceLoop
    by_cases hend : blen before < blen (before ++ rest)
    · rw [if_pos hend, splitAtByte_append]
      simp only
      rw [findNext_enc]
      cases hopen : nextDelim r true rest with
      | none => exact ⟨.ok rest, .done hopen, rfl⟩
      | some x =>
        obtain ⟨t, pre⟩ := x
        obtain ⟨rest1, rfl⟩ := nextDelim_spec hopen
        simp only [Option.map_some]
        rw [List.append_assoc pre, splitAtByte_append]
        simp only
        rw [delim_len_true, splitAtByte_append]
        simp only
        rw [findNext_enc]
        cases hclose : nextDelim r false rest1 with
        | none => exact ⟨_, by rw [← List.append_assoc]; exact .unclosed hopen hclose, rfl⟩
        | some x =>
          obtain ⟨t', content⟩ := x
          obtain ⟨rest2, rfl⟩ := nextDelim_spec hclose
          simp only [Option.map_some]
          by_cases hmis : ¬(r.inlineClose = r.blockClose) ∧ t ≠ t'
          · rw [if_pos hmis]
            exact ⟨_, by rw [← List.append_assoc pre]; exact .mismatched hopen hclose hmis.2 hmis.1, rfl⟩
          · rw [if_neg hmis]
            have hok : t = t' ∨ r.inlineClose = r.blockClose := by
              by_cases h1 : r.inlineClose = r.blockClose
              · exact Or.inr h1
              · exact Or.inl (Classical.byContradiction (fun h2 => hmis ⟨h1, h2⟩))
            have hsplit : splitAtByte (content ++ delim r false t' ++ rest2) (blen content) =
                some (content, delim r false t' ++ rest2) := by
              rw [List.append_assoc, splitAtByte_append]
            rw [hsplit]
            simp only
            rw [findNext_enc]
            cases hin : nextDelim r true content with
            | some x =>
              obtain ⟨t'', inner⟩ := x
              exact ⟨_, by rw [← List.append_assoc pre]; exact .nested hopen hclose hok hin, rfl⟩
            | none =>
              simp only [Option.map_none]
              cases hconv : f st (replaceHtmlEntities content) t with
              | mk st1 res1 =>
                cases res1 with
                | error e1 =>
                  simp only
                  cases hconv2 : f st1 (replaceHtmlEntities content) t with
                  | mk st2 res2 =>
                    cases res2 with
                    | error e2 =>
                      exact ⟨_, by
                        rw [← List.append_assoc pre]
                        exact .failed hopen hclose hok hin hconv hconv2, rfl⟩
                    | ok text =>
                      exact ⟨_, by
                        rw [← List.append_assoc pre]
                        exact .crash hopen hclose hok hin hconv hconv2, rfl⟩
                | ok text =>
                  simp only
                  rw [delim_len_false]
                  have hop := nextDelim_none hin
                  have hlen : 0 < blen (delim r true t) := by
                    have : delim r true t ≠ [] := by cases t <;> simp [delim, hop.1, hop.2]
                    cases hd : delim r true t with
                    | nil => exact absurd hd this
                    | cons c cs => have := utf8Size_pos c; simp; omega
                  have hpos : blen before + blen pre + blen (delim r true t) + blen content + blen (delim r false t') =
                      blen (before ++ pre ++ delim r true t ++ content ++ delim r false t') := by
                    simp only [blen_append]
                  have hdoc : before ++ (pre ++ (delim r true t ++ (content ++ delim r false t' ++ rest2))) =
                      (before ++ pre ++ delim r true t ++ content ++ delim r false t') ++ rest2 := by
                    simp
                  rw [hdoc, hpos]
                  obtain ⟨res, h1, h2⟩ := ih (before ++ pre ++ delim r true t ++ content ++ delim r false t')
                    rest2 (result ++ pre ++ text) st1 (by simp only [blen_append] at hf; omega) (Or.inr hop)
                  rw [← hpos] at h1
                  have h3 := Processed.formula hopen hclose hok hin hconv h1
                  rw [hpos] at h3
                  refine ⟨_, by rw [← List.append_assoc pre]; exact h3, ?_⟩
                  rw [h2]
                  cases res <;> simp
    · have : rest = [] := by
        cases rest with
        | nil => rfl
        | cons c cs => have := utf8Size_pos c; rw [blen_append] at hend; simp at hend; omega
      subst this
      rw [if_neg hend]
      rcases hne with h | h
      · exact absurd rfl h
      · refine ⟨.ok [], .done ?_, by simp⟩
        simp [nextDelim, beforeDelim, delim, h.1, h.2]

/-- What the CLI does to a document, for every document, delimiters and converter: the loop over
bytes does exactly what `Processed` says (text copied, formulas converted in order, errors at
their positions). It can crash only if a conversion fails and succeeds when it is repeated. The
only case left out is an empty document with an empty opening delimiter. -/
theorem C33_outcome {S E : Type} (r : Replacer) (f : S → Str → MathDisplay → S × Except E Str)
    (doc : Str) (st : S) (hne : doc ≠ [] ∨ (r.inlineOpen ≠ [] ∧ r.blockOpen ≠ [])) :
    Processed r f 0 st doc (r.replace f doc st).1 (r.replace f doc st).2 := by
  obtain ⟨res, h1, h2⟩ := replaceLoop_processed r f (blen doc + 1) [] doc [] st (by omega) hne
  simp only [List.nil_append, blen_nil] at h1 h2
  unfold Replacer.replace
  rw [h2]
  cases res <;> simpa using h1

theorem cancel_delim {r : Replacer} {o : Bool} {s pre pre' rest rest' : Str} {t t' : MathDisplay}
    (h : nextDelim r o s = some (t, pre)) (h' : nextDelim r o s = some (t', pre'))
    (e : pre ++ delim r o t ++ rest = pre' ++ delim r o t' ++ rest') : t = t' ∧ pre = pre' ∧ rest = rest' := by
  rw [h] at h'
  cases h'
  exact ⟨rfl, rfl, List.append_cancel_left e⟩

/-- The outcome is determined by the document, so that `C33_outcome` says exactly when each error
is reported and where. -/
theorem C33_unique {S E : Type} (r : Replacer) (f : S → Str → MathDisplay → S × Except E Str)
    {pos : Nat} {st : S} {doc : Str} {st1 st2 : S} {res1 res2 : ReplaceResult E}
    (h1 : Processed r f pos st doc st1 res1) (h2 : Processed r f pos st doc st2 res2) :
    st1 = st2 ∧ res1 = res2 := by
  induction h1 generalizing st2 res2 with
  | @done pos st s ho =>
    cases h2 with
    | done => exact ⟨rfl, rfl⟩
    | unclosed ho' => rw [ho] at ho'; cases ho'
    | mismatched ho' => rw [ho] at ho'; cases ho'
    | nested ho' => rw [ho] at ho'; cases ho'
    | failed ho' => rw [ho] at ho'; cases ho'
    | crash ho' => rw [ho] at ho'; cases ho'
    | formula ho' => rw [ho] at ho'; cases ho'
  | @unclosed pos st pre t rest ho hc =>
    generalize hd : pre ++ delim r true t ++ rest = d at *
    cases h2 with
    | done ho' => rw [ho] at ho'; cases ho'
    | unclosed ho' hc' =>
      obtain ⟨rfl, rfl, rfl⟩ := cancel_delim ho ho' hd
      exact ⟨rfl, rfl⟩
    | mismatched ho' hc' =>
      obtain ⟨rfl, rfl, rfl⟩ := cancel_delim ho ho' hd
      rw [hc] at hc'; cases hc'
    | nested ho' hc' =>
      obtain ⟨rfl, rfl, rfl⟩ := cancel_delim ho ho' hd
      rw [hc] at hc'; cases hc'
    | failed ho' hc' =>
      obtain ⟨rfl, rfl, rfl⟩ := cancel_delim ho ho' hd
      rw [hc] at hc'; cases hc'
    | crash ho' hc' =>
      obtain ⟨rfl, rfl, rfl⟩ := cancel_delim ho ho' hd
      rw [hc] at hc'; cases hc'
    | formula ho' hc' =>
      obtain ⟨rfl, rfl, rfl⟩ := cancel_delim ho ho' hd
      rw [hc] at hc'; cases hc'
  | @mismatched pos st pre t content t' rest ho hc hm hi =>
    generalize hd : pre ++ delim r true t ++ (content ++ delim r false t' ++ rest) = d at *
    cases h2 with
    | done ho' => rw [ho] at ho'; cases ho'
    | unclosed ho' hc' =>
      obtain ⟨rfl, rfl, rfl⟩ := cancel_delim ho ho' hd
      rw [hc] at hc'; cases hc'
    | mismatched ho' hc' =>
      obtain ⟨rfl, rfl, hr⟩ := cancel_delim ho ho' hd
      rw [← hr] at hc'
      obtain ⟨rfl, rfl, rfl⟩ := cancel_delim hc hc' hr
      exact ⟨rfl, rfl⟩
    | nested ho' hc' hm' =>
      obtain ⟨rfl, rfl, hr⟩ := cancel_delim ho ho' hd
      rw [← hr] at hc'
      obtain ⟨rfl, rfl, rfl⟩ := cancel_delim hc hc' hr
      rcases hm' with h | h <;> contradiction
    | failed ho' hc' hm' =>
      obtain ⟨rfl, rfl, hr⟩ := cancel_delim ho ho' hd
      rw [← hr] at hc'
      obtain ⟨rfl, rfl, rfl⟩ := cancel_delim hc hc' hr
      rcases hm' with h | h <;> contradiction
    | crash ho' hc' hm' =>
      obtain ⟨rfl, rfl, hr⟩ := cancel_delim ho ho' hd
      rw [← hr] at hc'
      obtain ⟨rfl, rfl, rfl⟩ := cancel_delim hc hc' hr
      rcases hm' with h | h <;> contradiction
    | formula ho' hc' hm' =>
      obtain ⟨rfl, rfl, hr⟩ := cancel_delim ho ho' hd
      rw [← hr] at hc'
      obtain ⟨rfl, rfl, rfl⟩ := cancel_delim hc hc' hr
      rcases hm' with h | h <;> contradiction
  | @nested pos st pre t content t' rest t'' inner ho hc hm hn =>
    generalize hd : pre ++ delim r true t ++ (content ++ delim r false t' ++ rest) = d at *
    cases h2 with
    | done ho' => rw [ho] at ho'; cases ho'
    | unclosed ho' hc' =>
      obtain ⟨rfl, rfl, rfl⟩ := cancel_delim ho ho' hd
      rw [hc] at hc'; cases hc'
    | mismatched ho' hc' hm' hi' =>
      obtain ⟨rfl, rfl, hr⟩ := cancel_delim ho ho' hd
      rw [← hr] at hc'
      obtain ⟨rfl, rfl, rfl⟩ := cancel_delim hc hc' hr
      rcases hm with h | h <;> contradiction
    | nested ho' hc' hm' hn' =>
      obtain ⟨rfl, rfl, hr⟩ := cancel_delim ho ho' hd
      rw [← hr] at hc'
      obtain ⟨rfl, rfl, rfl⟩ := cancel_delim hc hc' hr
      rw [hn] at hn'; cases hn'
      exact ⟨rfl, rfl⟩
    | failed ho' hc' hm' hn' =>
      obtain ⟨rfl, rfl, hr⟩ := cancel_delim ho ho' hd
      rw [← hr] at hc'
      obtain ⟨rfl, rfl, rfl⟩ := cancel_delim hc hc' hr
      rw [hn] at hn'; cases hn'
    | crash ho' hc' hm' hn' =>
      obtain ⟨rfl, rfl, hr⟩ := cancel_delim ho ho' hd
      rw [← hr] at hc'
      obtain ⟨rfl, rfl, rfl⟩ := cancel_delim hc hc' hr
      rw [hn] at hn'; cases hn'
    | formula ho' hc' hm' hn' =>
      obtain ⟨rfl, rfl, hr⟩ := cancel_delim ho ho' hd
      rw [← hr] at hc'
      obtain ⟨rfl, rfl, rfl⟩ := cancel_delim hc hc' hr
      rw [hn] at hn'; cases hn'
  | @failed pos st pre t content t' rest s1 e1 s2 e2 ho hc hm hn hf1 hf2 =>
    generalize hd : pre ++ delim r true t ++ (content ++ delim r false t' ++ rest) = d at *
    cases h2 with
    | done ho' => rw [ho] at ho'; cases ho'
    | unclosed ho' hc' =>
      obtain ⟨rfl, rfl, rfl⟩ := cancel_delim ho ho' hd
      rw [hc] at hc'; cases hc'
    | mismatched ho' hc' hm' hi' =>
      obtain ⟨rfl, rfl, hr⟩ := cancel_delim ho ho' hd
      rw [← hr] at hc'
      obtain ⟨rfl, rfl, rfl⟩ := cancel_delim hc hc' hr
      rcases hm with h | h <;> contradiction
    | nested ho' hc' hm' hn' =>
      obtain ⟨rfl, rfl, hr⟩ := cancel_delim ho ho' hd
      rw [← hr] at hc'
      obtain ⟨rfl, rfl, rfl⟩ := cancel_delim hc hc' hr
      rw [hn] at hn'; cases hn'
    | failed ho' hc' hm' hn' hf1' hf2' =>
      obtain ⟨rfl, rfl, hr⟩ := cancel_delim ho ho' hd
      rw [← hr] at hc'
      obtain ⟨rfl, rfl, rfl⟩ := cancel_delim hc hc' hr
      rw [hf1] at hf1'; cases hf1'
      rw [hf2] at hf2'; cases hf2'
      exact ⟨rfl, rfl⟩
    | crash ho' hc' hm' hn' hf1' hf2' =>
      obtain ⟨rfl, rfl, hr⟩ := cancel_delim ho ho' hd
      rw [← hr] at hc'
      obtain ⟨rfl, rfl, rfl⟩ := cancel_delim hc hc' hr
      rw [hf1] at hf1'; cases hf1'
      rw [hf2] at hf2'; cases hf2'
    | formula ho' hc' hm' hn' hf1' =>
      obtain ⟨rfl, rfl, hr⟩ := cancel_delim ho ho' hd
      rw [← hr] at hc'
      obtain ⟨rfl, rfl, rfl⟩ := cancel_delim hc hc' hr
      rw [hf1] at hf1'; cases hf1'
  | @crash pos st pre t content t' rest s1 e1 s2 text ho hc hm hn hf1 hf2 =>
    generalize hd : pre ++ delim r true t ++ (content ++ delim r false t' ++ rest) = d at *
    cases h2 with
    | done ho' => rw [ho] at ho'; cases ho'
    | unclosed ho' hc' =>
      obtain ⟨rfl, rfl, rfl⟩ := cancel_delim ho ho' hd
      rw [hc] at hc'; cases hc'
    | mismatched ho' hc' hm' hi' =>
      obtain ⟨rfl, rfl, hr⟩ := cancel_delim ho ho' hd
      rw [← hr] at hc'
      obtain ⟨rfl, rfl, rfl⟩ := cancel_delim hc hc' hr
      rcases hm with h | h <;> contradiction
    | nested ho' hc' hm' hn' =>
      obtain ⟨rfl, rfl, hr⟩ := cancel_delim ho ho' hd
      rw [← hr] at hc'
      obtain ⟨rfl, rfl, rfl⟩ := cancel_delim hc hc' hr
      rw [hn] at hn'; cases hn'
    | failed ho' hc' hm' hn' hf1' hf2' =>
      obtain ⟨rfl, rfl, hr⟩ := cancel_delim ho ho' hd
      rw [← hr] at hc'
      obtain ⟨rfl, rfl, rfl⟩ := cancel_delim hc hc' hr
      rw [hf1] at hf1'; cases hf1'
      rw [hf2] at hf2'; cases hf2'
    | crash ho' hc' hm' hn' hf1' hf2' =>
      obtain ⟨rfl, rfl, hr⟩ := cancel_delim ho ho' hd
      rw [← hr] at hc'
      obtain ⟨rfl, rfl, rfl⟩ := cancel_delim hc hc' hr
      rw [hf1] at hf1'; cases hf1'
      rw [hf2] at hf2'; cases hf2'
      exact ⟨rfl, rfl⟩
    | formula ho' hc' hm' hn' hf1' =>
      obtain ⟨rfl, rfl, hr⟩ := cancel_delim ho ho' hd
      rw [← hr] at hc'
      obtain ⟨rfl, rfl, rfl⟩ := cancel_delim hc hc' hr
      rw [hf1] at hf1'; cases hf1'
  | @formula pos st pre t content t' rest s1 text s2 res ho hc hm hn hf1 hrest ih =>
    generalize hd : pre ++ delim r true t ++ (content ++ delim r false t' ++ rest) = d at *
    cases h2 with
    | done ho' => rw [ho] at ho'; cases ho'
    | unclosed ho' hc' =>
      obtain ⟨rfl, rfl, rfl⟩ := cancel_delim ho ho' hd
      rw [hc] at hc'; cases hc'
    | mismatched ho' hc' hm' hi' =>
      obtain ⟨rfl, rfl, hr⟩ := cancel_delim ho ho' hd
      rw [← hr] at hc'
      obtain ⟨rfl, rfl, rfl⟩ := cancel_delim hc hc' hr
      rcases hm with h | h <;> contradiction
    | nested ho' hc' hm' hn' =>
      obtain ⟨rfl, rfl, hr⟩ := cancel_delim ho ho' hd
      rw [← hr] at hc'
      obtain ⟨rfl, rfl, rfl⟩ := cancel_delim hc hc' hr
      rw [hn] at hn'; cases hn'
    | failed ho' hc' hm' hn' hf1' hf2' =>
      obtain ⟨rfl, rfl, hr⟩ := cancel_delim ho ho' hd
      rw [← hr] at hc'
      obtain ⟨rfl, rfl, rfl⟩ := cancel_delim hc hc' hr
      rw [hf1] at hf1'; cases hf1'
    | crash ho' hc' hm' hn' hf1' hf2' =>
      obtain ⟨rfl, rfl, hr⟩ := cancel_delim ho ho' hd
      rw [← hr] at hc'
      obtain ⟨rfl, rfl, rfl⟩ := cancel_delim hc hc' hr
      rw [hf1] at hf1'; cases hf1'
    | formula ho' hc' hm' hn' hf1' hrest' =>
      obtain ⟨rfl, rfl, hr⟩ := cancel_delim ho ho' hd
      rw [← hr] at hc'
      obtain ⟨rfl, rfl, rfl⟩ := cancel_delim hc hc' hr
      rw [hf1] at hf1'; cases hf1'
      obtain ⟨rfl, rfl⟩ := ih hrest'
      exact ⟨rfl, rfl⟩

theorem processed_ok {S E : Type} {r : Replacer} {f : S → Str → MathDisplay → S × Except E Str}
    {pos : Nat} {st st' : S} {doc : Str} {res : ReplaceResult E} (h : Processed r f pos st doc st' res)
    {out : Str} (hres : res = .ok out) :
    ∃ (xs : List Formula) (tail : Str), doc = xs.flatMap (Formula.source r) ++ tail ∧
      out = xs.flatMap Formula.output ++ tail ∧ nextDelim r true tail = none ∧ Converted r f st xs st' := by
  induction h generalizing out with
  | @done pos st s ho =>
    cases hres
    exact ⟨[], s, rfl, rfl, ho, .nil⟩
  | unclosed => cases hres
  | mismatched => cases hres
  | nested => cases hres
  | failed => cases hres
  | crash => cases hres
  | @formula pos st pre t content t' rest s1 text s2 res ho hc hm hn hf1 hrest ih =>
    cases res with
    | err e => cases hres
    | panic => cases hres
    | ok o =>
      simp at hres
      subst hres
      obtain ⟨xs, tail, rfl, rfl, ht, hx⟩ := ih rfl
      refine ⟨⟨pre, t, content, t', text⟩ :: xs, tail, by simp [Formula.source], by simp [Formula.output],
        ht, .cons hf1 ?_ hn hx⟩
      rcases hm with rfl | hm
      · rfl
      · cases t <;> cases t' <;> simp [delim, hm]

/-- A converted document is the document with every formula, with its delimiters, replaced by what
the converter made of its content (with HTML entities decoded); all other text is copied, and
nothing after the last formula has an opening delimiter. -/
theorem C30_document {S E : Type} (r : Replacer) (f : S → Str → MathDisplay → S × Except E Str)
    (doc out : Str) (st st' : S) (h : r.replace f doc st = (st', .ok out)) (hne : doc ≠ []) :
    ∃ (xs : List Formula) (tail : Str), doc = xs.flatMap (Formula.source r) ++ tail ∧
      out = xs.flatMap Formula.output ++ tail ∧ nextDelim r true tail = none ∧ Converted r f st xs st' := by
  have := C33_outcome r f doc st (Or.inl hne)
  rw [h] at this
  exact processed_ok this rfl

/-- A document without opening delimiters is not changed, and the converter is not called. -/
theorem C30_no_formulas {S E : Type} (r : Replacer) (f : S → Str → MathDisplay → S × Except E Str)
    (doc : Str) (st : S) (h : nextDelim r true doc = none) : r.replace f doc st = (st, .ok doc) := by
  have h1 := C33_outcome r f doc st (Or.inr (nextDelim_none h))
  obtain ⟨h2, h3⟩ := C33_unique r f h1 (.done h)
  exact Prod.ext h2 h3

/-- The empty document is always left as it is. -/
theorem C30_empty {S E : Type} (r : Replacer) (f : S → Str → MathDisplay → S × Except E Str) (st : S) :
    r.replace f [] st = (st, .ok []) := rfl

/-- With an empty opening delimiter, no document except the empty one can be converted. -/
theorem C33_empty_opening {S E : Type} (r : Replacer) (f : S → Str → MathDisplay → S × Except E Str)
    (doc : Str) (st : S) (hd : doc ≠ []) (he : r.inlineOpen = [] ∨ r.blockOpen = []) :
    (r.replace f doc st).1 = st ∧ ∃ e, (r.replace f doc st).2 = .err e := by
  have key : ∀ s, nextDelim r true s ≠ none := by
    intro s h
    have := nextDelim_none h
    rcases he with h | h
    · exact this.1 h
    · exact this.2 h
  have h1 := C33_outcome r f doc st (Or.inl hd)
  generalize r.replace f doc st = x at *
  obtain ⟨st', res⟩ := x
  simp only at h1 ⊢
  cases h1 with
  | done h => exact absurd h (key _)
  | unclosed => exact ⟨rfl, _, rfl⟩
  | mismatched => exact ⟨rfl, _, rfl⟩
  | nested => exact ⟨rfl, _, rfl⟩
  | failed _ _ _ h => exact absurd h (key _)
  | crash _ _ _ h => exact absurd h (key _)
  | formula _ _ _ h => exact absurd h (key _)

/-- The CLI cannot crash on a document if a formula which is rejected would be rejected again. -/
theorem C33_no_crash {S E : Type} (r : Replacer) (f : S → Str → MathDisplay → S × Except E Str)
    (doc : Str) (st : S)
    (hf : ∀ st latex display e, (f st latex display).2 = .error e →
      ∃ e', (f (f st latex display).1 latex display).2 = .error e') :
    (r.replace f doc st).2 ≠ .panic := by
  by_cases hd : doc = []
  · subst hd; rw [C30_empty]; nofun
  · have h1 := C33_outcome r f doc st (Or.inl hd)
    generalize r.replace f doc st = x at *
    obtain ⟨st', res⟩ := x
    simp only at h1 ⊢
    have : ∀ pos st doc st' res, Processed r f pos st doc st' res → res ≠ .panic := by
      intro pos st doc st' res h
      induction h with
      | crash _ _ _ _ h1 h2 =>
        have := hf _ _ _ _ (congrArg Prod.snd h1)
        rw [h1] at this
        simp only [h2] at this
        obtain ⟨_, h⟩ := this
        cases h
      | @formula _ _ _ _ _ _ _ _ _ _ res _ _ _ _ _ _ ih => cases res <;> simp_all
      | _ => nofun
    exact this _ _ _ _ _ h1

/-- Positions in a document are reported by their line and column. -/
theorem C33_line_column (before after : Str) :
    lineAndCol (blen before) (before ++ after) = lineCol before := by
  have key : ∀ (todo done : Str) (lc : Nat × Nat), lc = lineCol done →
      lineAndColLoop (blen (done ++ todo)) (todo ++ after) (blen done) lc = lineCol (done ++ todo) := by
    intro todo
    induction todo with
    | nil =>
      intro done lc hlc
      obtain ⟨l, c⟩ := lc
      cases after with
      | nil => simpa [lineAndColLoop] using hlc
      | cons a as =>
        simp only [List.append_nil, List.nil_append]
        unfold lineAndColLoop
        rw [if_pos (Nat.le_refl _)]
        exact hlc
    | cons a as ih =>
      intro done lc hlc
      obtain ⟨l, c⟩ := lc
      rw [List.cons_append]
      unfold lineAndColLoop
      have hp := utf8Size_pos a
      rw [if_neg (by simp [blen_append]; omega)]
      have := ih (done ++ [a]) (if a = '\n' then (l + 1, 1) else (l, c + 1)) (by
        simp only [lineCol, Prod.mk.injEq] at hlc ⊢
        by_cases ha : a = '\n'
        · subst ha; simp [hlc.1]
        · simp [ha, hlc.1, hlc.2])
      simpa [blen_append] using this
  simpa [lineAndCol] using key before [] (1, 1) rfl

/-! ### Examples -/

/-- `$` and `$$`; a converter which counts the formulas, and fails for an empty one. -/
def dollars : Replacer := ⟨c!"$", c!"$", c!"$$", c!"$$", true⟩
def counting (n : Nat) (s : Str) (_ : MathDisplay) : Nat × Except Nat Str :=
  (n + 1, if s.isEmpty then .error n else .ok (c!"<" ++ s ++ c!">"))

example : dollars.replace counting c!"a $x$ \\$3 $$y &lt; 1$$ b" 0 =
    (2, .ok c!"a <x> \\$3 <y < 1> b") := by decide +kernel
example : (dollars.replace counting c!"é $x$ $y" 0).2 = .err (.unclosedDelimiter 7) := by decide +kernel
example : (dollars.replace counting c!"$x$$ $" 0).2 = .err (.mismatchedDelimiters 0 2) := by decide +kernel
example : (dollars.replace counting c!"$x$ $$$$" 0).2 = .err (.latexError 6 2 []) := by decide +kernel
example : (Replacer.replace ⟨c!"(", c!")", c!"[", c!"]", false⟩ counting c!"a (b [c)" 0).2 =
    .err (.nestedDelimiters 5) := by decide +kernel
example : nextDelim dollars true c!"3 \\$ 4" = none := by decide +kernel
example : dollars.inlineOpen ≠ [] ∧ dollars.blockOpen ≠ [] := by decide
example : (Replacer.replace ⟨[], c!")", c!"[", c!"]", false⟩ counting c!"a" 0).2 =
    .err (.unclosedDelimiter 0) := by decide +kernel
example : lineAndCol 4 c!"é\n$x" = (2, 2) := by decide +kernel
/-- `counting` fails again after it failed. -/
example : ∀ st latex display e, (counting st latex display).2 = .error e →
    ∃ e', (counting (counting st latex display).1 latex display).2 = .error e' := by
  intro st latex display e h
  simp only [counting] at h ⊢
  by_cases hl : List.isEmpty latex
  · exact ⟨st + 1, by rw [if_pos hl]⟩
  · rw [if_neg hl] at h; cases h
/-- A converter whose second run succeeds crashes the CLI. -/
example : (dollars.replace (fun (n : Nat) _ _ => (n + 1, if n = 0 then .error () else .ok [])) c!"$x$" 0).2 =
    .panic := by decide +kernel

end Verif

import Verif.Lemmas.Queue
/-! Lemmas about reading groups, and about how many tokens are left. -/
namespace Verif
open Model Spec Lexer' TokenQueue

/-! ### How much there is still to read -/

/-- The sum of the weights of some tokens -/
def wsum (w : Token → Nat) (l : List QueuedTok) : Nat := (l.map fun t => w t.tok).sum

@[simp] theorem wsum_nil (w) : wsum w [] = 0 := rfl
@[simp] theorem wsum_cons (w t l) : wsum w (t :: l) = w t.tok + wsum w l := rfl
@[simp] theorem wsum_append (w l m) : wsum w (l ++ m) = wsum w l + wsum w m := by
  simp [wsum]

/-- A measure of what is still to read, if tokens have weights and a character of the source has the weight
`W` -/
def mu (w : Token → Nat) (W : Nat) (q : TokenQueue) : Nat := wsum w q.queue + W * q.lexer.rest.length

/-- The weights are such that reading from the source does not increase the measure. -/
structure Weights (w : Token → Nat) (W : Nat) (cfg : ParserConfig) : Prop where
  eoi : w .eoi = 0
  bound : ∀ (stores : CmdStores) (l : Lexer) (out : LexerOutput) (l' : Lexer),
    l.nextToken = .ok (out, l') → w (resolveLexed cfg stores out).tok ≤ W

theorem rest_le {l : Lexer} {out l'} (h : l.nextToken = .ok (out, l')) :
    l'.rest.length ≤ l.rest.length := by
  obtain ⟨gap, text, after, hk⟩ := nextToken_ok h
  have := congrArg List.length hk.rest
  simp only [List.length_append] at this
  omega

theorem Loaded.mu {w W cfg} (hw : Weights w W cfg) {stores l ts l'} (h : Loaded cfg stores l ts l') :
    wsum w ts + W * l'.rest.length ≤ W * l.rest.length := by
  induction h with
  | nil => simp
  | @cons l out l1 ts l2 h1 _ ih =>
    rw [wsum_cons]
    cases he : isEoi out with
    | true =>
      rw [resolveLexed_eoi he, hw.eoi]
      have := Nat.mul_le_mul_left W (rest_le h1)
      omega
    | false =>
      have h2 := rest_lt h1 he
      have h3 := hw.bound stores l out l1 h1
      have h4 : W * (l1.rest.length + 1) ≤ W * l.rest.length := Nat.mul_le_mul_left W h2
      rw [Nat.mul_add, Nat.mul_one] at h4
      omega

theorem Ext.mu {w W cfg} (hw : Weights w W cfg) {q q'} (h : Ext cfg q q') : Verif.mu w W q' ≤ Verif.mu w W q := by
  obtain ⟨ts, h1, h2, -⟩ := h
  have := h1.mu hw
  unfold Verif.mu
  rw [h2, wsum_append]
  omega

/-- Every token but the last one counts. -/
def one (t : Token) : Nat := if t.isEoi then 0 else 1

theorem one_weights (cfg) : Weights one 1 cfg :=
  ⟨rfl, by intro s l o l' _; unfold one; split <;> omega⟩

/-- The number of tokens which can still be read -/
def cnt (q : TokenQueue) : Nat := mu one 1 q

theorem wsum_one_le (l : List QueuedTok) : wsum one l ≤ l.length := by
  induction l with
  | nil => simp
  | cons t l ih =>
    have : one t.tok ≤ 1 := by unfold one; split <;> omega
    rw [wsum_cons, List.length_cons]; omega

theorem cnt_loopFuel (q : TokenQueue) : cnt q + 2 ≤ q.loopFuel := by
  unfold cnt mu loopFuel
  have := wsum_one_le q.queue
  omega

theorem Ext.cnt {cfg q q'} (h : Ext cfg q q') : Verif.cnt q' ≤ Verif.cnt q := h.mu (one_weights cfg)

theorem mu_drop {w W} {q : TokenQueue} {pre t post} (hs : q.queue = pre ++ t :: post) :
    mu w W { q with queue := post } + w t.tok ≤ mu w W q := by
  unfold mu
  simp only [hs, wsum_append, wsum_cons]
  omega

theorem eoi_of_isEoi {t : Token} (h : t.isEoi = true) : t = .eoi := by
  cases t <;> first | rfl | cases h

theorem unwrap_eoi {t : Token} (h : t.isEoi = true) : t.unwrapMath.isEoi = true := by
  rw [eoi_of_isEoi h]; rfl

/-! ### Groups -/

theorem _root_.Verif.Spec.StartsWith.nil (u : Stream) : StartsWith u [] := fun _ h => absurd h (Nat.not_lt_zero _)

theorem _root_.Verif.Spec.StartsWith.append {u : Stream} {l m : List QueuedTok} (h : StartsWith u l)
    (h' : StartsWith (u.drop l.length) m) : StartsWith u (l ++ m) := by
  intro i hi
  rw [List.length_append] at hi
  by_cases hl : i < l.length
  · rw [List.getElem_append_left hl]; exact h i hl
  · rw [List.getElem_append_right (by omega), ← h' (i - l.length) (by omega)]
    unfold Stream.drop; congr 1; omega

theorem _root_.Verif.Spec.StartsWith.queue {cfg} {q : TokenQueue} {pre post : List QueuedTok} (hs : q.queue = pre ++ post) :
    StartsWith (upcoming cfg q) pre := by
  intro i hi
  exact upcoming_head (by rw [hs, List.getElem?_append_left hi, List.getElem?_eq_getElem hi])

/-- How the loop which reads a group can end, started at a depth and with some tokens read already -/
inductive GroupEnds (cfg : ParserConfig) (keep : Bool) (d : Nat) (u : Stream) (acc : List QueuedTok) :
    Except LatexError (List QueuedTok × Nat × Stream) → Prop
  | close (l close) : StartsWith u l → u l.length = .ok close → (asRead keep close).tok = .groupEnd →
      braceDepth d (l.map fun t => (asRead keep t).tok) = some 0 →
      (∀ t ∈ l, (asRead keep t).tok.isEoi = false) →
      GroupEnds cfg keep d u acc (.ok (acc ++ allAsRead keep l, close.span.stop, u.drop (l.length + 1)))
  | eoi (l eoi) : StartsWith u l → u l.length = .ok eoi → (asRead keep eoi).tok = .eoi →
      (braceDepth d (l.map fun t => (asRead keep t).tok)).isSome →
      (∀ t ∈ l, (asRead keep t).tok.isEoi = false) →
      GroupEnds cfg keep d u acc (.error (eoi.span.err (.unclosedGroup .groupClose)))
  | lex (i e) : u i = .error e → GroupEnds cfg keep d u acc (.error e)
  | unknown (l t name) : StartsWith u l → u l.length = .ok t →
      (asRead keep t).tok = .unresolvedCommand name → cfg.ignoreUnknownCommands = false →
      (braceDepth d (l.map fun t => (asRead keep t).tok)).isSome →
      (∀ t ∈ l, (asRead keep t).tok.isEoi = false) →
      GroupEnds cfg keep d u acc (.error (t.span.err (.unknownCommand name)))

theorem braceDepth_append (d : Nat) (l m : List Token) :
    braceDepth d (l ++ m) = (braceDepth d l).bind fun d => braceDepth d m := by
  fun_induction braceDepth d l with
  | case1 => rfl
  | case2 d ts ih => simp only [List.cons_append, braceDepth, ih]
  | case3 => rfl
  | case4 d ts ih => simp only [List.cons_append, braceDepth, ih]
  | case5 d t ts h1 h2 h3 ih =>
    rw [List.cons_append, braceDepth.eq_5 _ _ _ h1 h2 h3, ih]

/-- The depth after one token -/
def depthStep (d : Nat) (t : Token) : Option Nat := braceDepth d [t]

theorem braceDepth_cons (d : Nat) (t : Token) (ts : List Token) :
    braceDepth d (t :: ts) = (depthStep d t).bind fun d => braceDepth d ts := by
  rw [← List.singleton_append, braceDepth_append]; rfl

/-- One more step at the front -/
theorem GroupEnds.step {cfg keep d u acc r} {pre : List QueuedTok} {t : QueuedTok} {d' : Nat}
    (hpre : StartsWith u (pre ++ [t]))
    (hd : braceDepth d ((pre ++ [t]).map fun t => (asRead keep t).tok) = some d')
    (hne : ∀ x ∈ pre ++ [t], (asRead keep x).tok.isEoi = false)
    (hv : allAsRead keep (pre ++ [t]) = [asRead keep t])
    (h : GroupEnds cfg keep d' (u.drop (pre.length + 1)) (acc ++ [asRead keep t]) r) :
    GroupEnds cfg keep d u acc r := by
  have hlen : (pre ++ [t]).length = pre.length + 1 := by simp
  have hbr : ∀ l : List QueuedTok, braceDepth d (((pre ++ [t]) ++ l).map fun t => (asRead keep t).tok) =
      braceDepth d' (l.map fun t => (asRead keep t).tok) := by
    intro l; rw [List.map_append, braceDepth_append, hd]; rfl
  have hall : ∀ l : List QueuedTok, acc ++ [asRead keep t] ++ allAsRead keep l =
      acc ++ allAsRead keep ((pre ++ [t]) ++ l) := by
    intro l
    rw [List.append_assoc, ← hv]
    congr 1
    unfold allAsRead
    cases keep
    · simp only [Bool.false_eq_true, if_false, List.filter_append, List.map_append]
    · simp only [if_true]
  have hu : ∀ n, (u.drop (pre.length + 1)) n = u (((pre ++ [t]).length) + n) := by
    intro n; rw [hlen]; rfl
  have hmem : ∀ l : List QueuedTok, (∀ t ∈ l, (asRead keep t).tok.isEoi = false) →
      ∀ x ∈ (pre ++ [t]) ++ l, (asRead keep x).tok.isEoi = false := by
    intro l hl x hx
    rcases List.mem_append.1 hx with hx | hx
    · exact hne x hx
    · exact hl x hx
  cases h with
  | close l close h1 h2 h3 h4 h5 =>
    rw [hall, Stream.drop_drop, show pre.length + 1 + (l.length + 1) = ((pre ++ [t]) ++ l).length + 1 by
      simp; omega]
    refine .close _ close (hpre.append (by rw [hlen]; exact h1)) ?_ h3 (by rw [hbr]; exact h4) (hmem l h5)
    rw [List.length_append, ← hu]; exact h2
  | eoi l eoi h1 h2 h3 h4 h5 =>
    refine .eoi _ eoi (hpre.append (by rw [hlen]; exact h1)) ?_ h3 (by rw [hbr]; exact h4) (hmem l h5)
    rw [List.length_append, ← hu]; exact h2
  | lex i e h1 => exact .lex (pre.length + 1 + i) e h1
  | unknown l x name h1 h2 h3 h4 h5 h6 =>
    refine .unknown _ x name (hpre.append (by rw [hlen]; exact h1)) ?_ h3 h4 (by rw [hbr]; exact h5) (hmem l h6)
    rw [List.length_append, ← hu]; exact h2

/-- Whitespace as it is read -/
theorem asRead_ws {keep} {t : QueuedTok} (h : t.tok.isWs = true) : asRead keep t = t := by
  obtain ⟨tok, span, name⟩ := t
  unfold asRead QueuedTok.unwrapMath
  cases tok <;> first | (cases h; done) | (split <;> rfl)

theorem braceDepth_ws (d : Nat) (keep) (l : List QueuedTok) (h : ∀ x ∈ l, x.tok.isWs = true) :
    braceDepth d (l.map fun t => (asRead keep t).tok) = some d := by
  induction l with
  | nil => simp [braceDepth]
  | cons t l ih =>
    have ht := h t (by simp)
    rw [List.map_cons, asRead_ws ht, braceDepth_cons]
    have : depthStep d t.tok = some d := by
      generalize t.tok = tok at ht
      cases tok <;> first | (cases ht; done) | (unfold depthStep; simp [braceDepth])
    rw [this]
    exact ih fun x hx => h x (by simp [hx])

theorem ws_not_eoi {t : Token} (h : t.isWs = true) : t.isEoi = false := by
  cases t <;> first | (cases h; done) | rfl

theorem filter_ws (l : List QueuedTok) (h : ∀ x ∈ l, x.tok.isWs = true) :
    l.filter (fun t => !t.tok.isWs) = [] := by
  rw [List.filter_eq_nil_iff]
  intro x hx; rw [h x hx]; simp

/-- What one read of the loop gives, in terms of the stream -/
theorem groupRead_spec (cfg : ParserConfig) (keep : Bool) (q : TokenQueue) (hq : QInv q) :
    ∃ pre t, StartsWith (upcoming cfg q) (pre ++ [t]) ∧ (∀ x ∈ pre, x.tok.isWs = true) ∧
      allAsRead keep (pre ++ [t]) = [asRead keep t] ∧
      ((∃ q', (if keep then nextAnyKeepingName else nextKeepingName) cfg q = .ok (asRead keep t) q' ∧
          QInv q' ∧ upcoming cfg q' = (upcoming cfg q).drop (pre.length + 1) ∧
          cnt q' + one (asRead keep t).tok ≤ cnt q ∧ q'.stores = q.stores) ∨
       (∃ e q', (if keep then nextAnyKeepingName else nextKeepingName) cfg q = .err e q' ∧
          ((∃ i, upcoming cfg q i = .error e) ∨
           ∃ name, (asRead keep t).tok = .unresolvedCommand name ∧ cfg.ignoreUnknownCommands = false ∧
            e = t.span.err (.unknownCommand name)))) := by
  obtain ⟨pre, t, post, hs, hl, hw, hpre⟩ := hq.split
  cases keep with
  | true =>
    obtain ⟨t0, rest, h0⟩ : ∃ t0 rest, q.queue = t0 :: rest := by
      rw [hs]; cases pre <;> simp
    have hs' : q.queue = ([] ++ [t0]) ++ rest := by rw [h0]; simp
    refine ⟨[], t0, .queue hs', by simp, by simp [allAsRead, asRead], ?_⟩
    simp only [if_true]
    rcases nextAny_spec cfg q hq h0 with ⟨q', h1, h2, h3, h4⟩ | ⟨e, q', h1, h2, h3⟩
    · refine Or.inl ⟨q', h1, h3, h2.upcoming_drop hs', ?_, h2.choose_spec.2.2.1⟩
      have h5 := h2.cnt
      have h6 := @mu_drop one 1 q [] t0 rest h0
      unfold cnt at h5 ⊢
      simp only [asRead, if_true]
      omega
    · refine Or.inr ⟨e, q', h1, ?_⟩
      rcases h3 with h3 | ⟨name, h3, h4, h5⟩
      · exact Or.inl (h2.stream_error hs' h3)
      · exact Or.inr ⟨name, h3, h4, h5⟩
  | false =>
    have hs' : q.queue = (pre ++ [t]) ++ post := by rw [hs]; simp
    refine ⟨pre, t, .queue hs', hpre, ?_, ?_⟩
    · simp [allAsRead, asRead, filter_ws pre hpre, hw]
    simp only [Bool.false_eq_true, if_false]
    rcases next_spec cfg q hq hs hl with ⟨q', h1, h2, h3, h4⟩ | ⟨e, q', h1, h2, h3⟩
    · refine Or.inl ⟨q', h1, h3, ?_, ?_, h2.choose_spec.2.2.1⟩
      · rw [h2.upcoming_drop hs']; simp
      have h5 := h2.cnt
      have h6 := @mu_drop one 1 q pre t post hs
      have h7 : one t.unwrapMath.tok ≤ one t.tok := by
        unfold one
        cases he : t.tok.isEoi with
        | true => rw [show t.unwrapMath.tok.isEoi = true from unwrap_eoi he]; simp
        | false => split <;> simp
      unfold cnt at h5 ⊢
      simp only [asRead, Bool.false_eq_true, if_false]
      omega
    · refine Or.inr ⟨e, q', h1, ?_⟩
      rcases h3 with h3 | ⟨name, h3, h4, h5⟩
      · exact Or.inl (h2.stream_error hs' h3)
      · exact Or.inr ⟨name, h3, h4, h5⟩

/-- What the loop does with the token it has read -/
def groupCont (keep : Bool) (fuel nesting : Nat) (acc : List QueuedTok) (t : QueuedTok) :
    Q (List QueuedTok × Nat) :=
  match t.tok with
  | .groupEnd =>
    if nesting = 0 then pure (acc, t.span.stop)
    else recordGroupLoop keep fuel (nesting - 1) (acc ++ [t])
  | .eoi => St.throw (t.span.err (.unclosedGroup .groupClose))
  | tok => recordGroupLoop keep fuel (if tok.isGroupBegin then nesting + 1 else nesting) (acc ++ [t])

theorem recordGroupLoop_succ (keep : Bool) (fuel nesting : Nat) (acc : List QueuedTok) :
    recordGroupLoop keep (fuel + 1) nesting acc =
      St.bind (if keep then nextAnyKeepingName else nextKeepingName) (groupCont keep fuel nesting acc) := by
  cases keep <;> rfl

/-- The loop which reads a group -/
theorem recordGroupLoop_spec (cfg : ParserConfig) (keep : Bool) (fuel d : Nat) (acc : List QueuedTok)
    (q : TokenQueue) (hq : QInv q) (hf : cnt q < fuel) :
    (∃ toks stop q', recordGroupLoop keep fuel d acc cfg q = .ok (toks, stop) q' ∧ QInv q' ∧
      q'.stores = q.stores ∧ cnt q' ≤ cnt q ∧
      GroupEnds cfg keep d (upcoming cfg q) acc (.ok (toks, stop, upcoming cfg q'))) ∨
    (∃ e q', recordGroupLoop keep fuel d acc cfg q = .err e q' ∧
      GroupEnds cfg keep d (upcoming cfg q) acc (.error e)) := by
  induction fuel generalizing d acc q with
  | zero => omega
  | succ fuel ih =>
    obtain ⟨pre, t, hst, hpre, hv, h⟩ := groupRead_spec cfg keep q hq
    have hst' : StartsWith (upcoming cfg q) pre := by
      intro i hi
      have := hst i (by simp; omega)
      rw [List.getElem_append_left hi] at this
      exact this
    have hat : upcoming cfg q pre.length = .ok t := by
      have := hst pre.length (by simp)
      simpa using this
    have hd0 := braceDepth_ws d keep pre hpre
    have hne0 : ∀ x ∈ pre, (asRead keep x).tok.isEoi = false := by
      intro x hx; rw [asRead_ws (hpre x hx)]; exact ws_not_eoi (hpre x hx)
    have hnil : allAsRead keep pre = [] ∨ (keep = true) := by
      cases keep
      · left; simp [allAsRead, filter_ws pre hpre]
      · exact Or.inr rfl
    rw [recordGroupLoop_succ]
    unfold St.bind
    rcases h with ⟨q', h1, h2, h3, h4, h5⟩ | ⟨e, q', h1, h2⟩
    · rw [h1]
      simp only [groupCont]
      -- going on, at the depth after this token
      have go : ∀ d', depthStep d (asRead keep t).tok = some d' → (asRead keep t).tok.isEoi = false →
          (∃ toks stop q'', recordGroupLoop keep fuel d' (acc ++ [asRead keep t]) cfg q' = .ok (toks, stop) q'' ∧
            QInv q'' ∧ q''.stores = q.stores ∧ cnt q'' ≤ cnt q ∧
            GroupEnds cfg keep d (upcoming cfg q) acc (.ok (toks, stop, upcoming cfg q''))) ∨
          (∃ e q'', recordGroupLoop keep fuel d' (acc ++ [asRead keep t]) cfg q' = .err e q'' ∧
            GroupEnds cfg keep d (upcoming cfg q) acc (.error e)) := by
        intro d' hd' he
        have hone : one (asRead keep t).tok = 1 := by unfold one; rw [he]; rfl
        have hstep : ∀ r, GroupEnds cfg keep d' (upcoming cfg q') (acc ++ [asRead keep t]) r →
            GroupEnds cfg keep d (upcoming cfg q) acc r := by
          intro r hr
          rw [h3] at hr
          refine GroupEnds.step hst ?_ ?_ hv hr
          · rw [List.map_append, braceDepth_append, hd0]; exact hd'
          · intro x hx
            rcases List.mem_append.1 hx with hx | hx
            · exact hne0 x hx
            · rw [List.mem_singleton.1 hx]; exact he
        rcases ih d' (acc ++ [asRead keep t]) q' h2 (by omega) with ⟨toks, stop, q'', i1, i2, i3, i4, i5⟩ |
          ⟨e, q'', i1, i2⟩
        · exact Or.inl ⟨toks, stop, q'', i1, i2, by rw [i3, h5], by omega, hstep _ i5⟩
        · exact Or.inr ⟨e, q'', i1, hstep _ i2⟩
      generalize hx : asRead keep t = x at *
      obtain ⟨tok, span, name⟩ := x
      cases tok with
      | groupEnd =>
        cases d with
        | zero =>
          refine Or.inl ⟨acc, span.stop, q', rfl, h2, h5, by omega, ?_⟩
          have hk := GroupEnds.close (cfg := cfg) (keep := keep) (d := 0) (acc := acc) pre t hst' hat
            (by rw [hx]) hd0 hne0
          rw [← h3] at hk
          have hnil' : allAsRead keep pre = [] := by
            rcases hnil with h | h
            · exact h
            · subst h
              cases pre with
              | nil => rfl
              | cons a l => simp [allAsRead] at hv
          rw [hnil', List.append_nil, show t.span.stop = span.stop by
            have := congrArg QueuedTok.span hx
            unfold asRead QueuedTok.unwrapMath at this
            split at this <;> exact congrArg Span.stop this] at hk
          exact hk
        | succ d =>
          simp only [Nat.succ_ne_zero, if_false, Nat.add_sub_cancel]
          exact go d rfl rfl
      | eoi =>
        refine Or.inr ⟨_, q', rfl, ?_⟩
        have hk := GroupEnds.eoi (cfg := cfg) (keep := keep) (d := d) (acc := acc) pre t hst' hat
            (by rw [hx]) (by rw [hd0]; rfl) hne0
        rw [show t.span = span by
            have := congrArg QueuedTok.span hx
            unfold asRead QueuedTok.unwrapMath at this
            split at this <;> exact this] at hk
        exact hk
      | groupBegin => exact go (d + 1) rfl rfl
      | _ => exact go d (by unfold depthStep; simp [braceDepth]) rfl
    · rw [h1]
      refine Or.inr ⟨e, q', rfl, ?_⟩
      rcases h2 with ⟨i, hi⟩ | ⟨name, h2, h3, rfl⟩
      · exact .lex i e hi
      · exact .unknown pre t name hst' hat h2 h3 (by rw [hd0]; rfl) hne0

/-! ### Bodies of definitions -/

/-- How the loop which reads the body of a definition can end -/
inductive BodyEnds (d : Nat) (u : Stream) (acc : List QueuedTok) :
    Except LatexError (List QueuedTok × Stream) → Prop
  | close (l close) : StartsWith u l → u l.length = .ok close → close.tok = .groupEnd →
      braceDepth d (l.map (·.tok)) = some 0 → (∀ t ∈ l, t.tok.isEoi = false) →
      BodyEnds d u acc (.ok (acc ++ l, u.drop l.length))
  | eoi (l eoi) : StartsWith u l → u l.length = .ok eoi → eoi.tok = .eoi →
      (braceDepth d (l.map (·.tok))).isSome → (∀ t ∈ l, t.tok.isEoi = false) →
      BodyEnds d u acc (.error (eoi.span.err (.unclosedGroup .groupClose)))
  | lex (i e) : u i = .error e → BodyEnds d u acc (.error e)

theorem BodyEnds.step {d u acc r} {t : QueuedTok} {d' : Nat} (ht : u 0 = .ok t)
    (hd : depthStep d t.tok = some d') (hne : t.tok.isEoi = false)
    (h : BodyEnds d' (u.drop 1) (acc ++ [t]) r) : BodyEnds d u acc r := by
  have hpre : StartsWith u [t] := by
    intro i hi
    have : i = 0 := by simpa using hi
    subst this; exact ht
  have hbr : ∀ l : List QueuedTok, braceDepth d ((t :: l).map (·.tok)) = braceDepth d' (l.map (·.tok)) := by
    intro l; rw [List.map_cons, braceDepth_cons, hd]; rfl
  have hmem : ∀ l : List QueuedTok, (∀ t ∈ l, t.tok.isEoi = false) →
      ∀ x ∈ t :: l, x.tok.isEoi = false := by
    intro l hl x hx
    rcases List.mem_cons.1 hx with rfl | hx
    · exact hne
    · exact hl x hx
  have hu : ∀ l : List QueuedTok, u (t :: l).length = (u.drop 1) l.length := by
    intro l; unfold Stream.drop; congr 1; simp; omega
  cases h with
  | close l close h1 h2 h3 h4 h5 =>
    rw [List.append_assoc, List.singleton_append, Stream.drop_drop,
      show 1 + l.length = (t :: l).length by simp; omega]
    exact .close _ close (hpre.append h1) (by rw [hu]; exact h2) h3 (by rw [hbr]; exact h4) (hmem l h5)
  | eoi l eoi h1 h2 h3 h4 h5 =>
    exact .eoi (t :: l) eoi (hpre.append h1) (by rw [hu]; exact h2) h3 (by rw [hbr]; exact h4) (hmem l h5)
  | lex i e h1 => exact .lex (1 + i) e h1

/-- What the loop does with the next token -/
def bodyCont (fuel nesting : Nat) (acc : List QueuedTok) (t : QueuedTok) : Q (List QueuedTok) :=
  match t.tok with
  | .groupEnd =>
    if nesting = 0 then pure acc
    else St.bind nextAnyAllowingUnknown fun _ => recordMacroBodyLoop fuel (nesting - 1) (acc ++ [t])
  | .eoi => St.throw (t.span.err (.unclosedGroup .groupClose))
  | tok => St.bind nextAnyAllowingUnknown fun _ =>
      recordMacroBodyLoop fuel (if tok.isGroupBegin then nesting + 1 else nesting) (acc ++ [t])

theorem recordMacroBodyLoop_succ (fuel nesting : Nat) (acc : List QueuedTok) (cfg : ParserConfig)
    (q : TokenQueue) : recordMacroBodyLoop (fuel + 1) nesting acc cfg q =
      bodyCont fuel nesting acc q.peekAnyKeepingName cfg q := by
  rfl

theorem recordMacroBodyLoop_spec (cfg : ParserConfig) (fuel d : Nat) (acc : List QueuedTok)
    (q : TokenQueue) (hq : QInv q) (hf : cnt q < fuel) :
    (∃ toks q', recordMacroBodyLoop fuel d acc cfg q = .ok toks q' ∧ QInv q' ∧
      q'.stores = q.stores ∧ cnt q' ≤ cnt q ∧
      BodyEnds d (upcoming cfg q) acc (.ok (toks, upcoming cfg q'))) ∨
    (∃ e q', recordMacroBodyLoop fuel d acc cfg q = .err e q' ∧
      BodyEnds d (upcoming cfg q) acc (.error e)) := by
  induction fuel generalizing d acc q with
  | zero => omega
  | succ fuel ih =>
    obtain ⟨t, rest, h0⟩ : ∃ t0 rest, q.queue = t0 :: rest := by
      obtain ⟨pre, t, post, hs, -⟩ := hq.split
      rw [hs]; cases pre <;> simp
    have hs' : q.queue = [t] ++ rest := by rw [h0]; simp
    have ht : upcoming cfg q 0 = .ok t := upcoming_head (by rw [h0]; rfl)
    rw [recordMacroBodyLoop_succ, show q.peekAnyKeepingName = t by unfold peekAnyKeepingName; rw [h0]; rfl]
    have hnil : StartsWith (upcoming cfg q) [] := .nil _
    have go : ∀ d', depthStep d t.tok = some d' → t.tok.isEoi = false →
        (∃ toks q'', St.bind nextAnyAllowingUnknown (fun _ => recordMacroBodyLoop fuel d' (acc ++ [t])) cfg q =
            .ok toks q'' ∧ QInv q'' ∧ q''.stores = q.stores ∧ cnt q'' ≤ cnt q ∧
            BodyEnds d (upcoming cfg q) acc (.ok (toks, upcoming cfg q''))) ∨
        (∃ e q'', St.bind nextAnyAllowingUnknown (fun _ => recordMacroBodyLoop fuel d' (acc ++ [t])) cfg q =
            .err e q'' ∧ BodyEnds d (upcoming cfg q) acc (.error e)) := by
      intro d' hd' he
      have hone : one t.tok = 1 := by unfold one; rw [he]; rfl
      unfold St.bind
      rcases nextAnyAllowing_spec cfg q hq h0 with ⟨q', h1, h2, h3⟩ | ⟨e, q', h1, h2⟩
      · rw [h1]
        simp only
        have h5 := h2.cnt
        have h6 := @mu_drop one 1 q [] t rest h0
        have h7 : upcoming cfg q' = (upcoming cfg q).drop 1 := h2.upcoming_drop hs'
        unfold cnt at h5 hf ⊢
        rcases ih d' (acc ++ [t]) q' h3 (by unfold cnt; omega) with ⟨toks, q'', i1, i2, i3, i4, i5⟩ | ⟨e, q'', i1, i2⟩
        · unfold cnt at i4
          rw [h7] at i5
          exact Or.inl ⟨toks, q'', i1, i2, by rw [i3]; exact h2.choose_spec.2.2.1, by omega, .step ht hd' he i5⟩
        · rw [h7] at i2
          exact Or.inr ⟨e, q'', i1, .step ht hd' he i2⟩
      · rw [h1]
        obtain ⟨i, hi⟩ := h2.1.stream_error hs' h2.2
        exact Or.inr ⟨e, q', rfl, .lex i e hi⟩
    unfold bodyCont
    obtain ⟨tok, span, name⟩ := t
    cases tok with
    | groupEnd =>
      cases d with
      | zero =>
        refine Or.inl ⟨acc, q, rfl, hq, rfl, Nat.le_refl _, ?_⟩
        have := BodyEnds.close (d := 0) (acc := acc) [] _ hnil ht rfl rfl (by simp)
        rwa [List.append_nil, show ((upcoming cfg q).drop ([] : List QueuedTok).length) = upcoming cfg q by
          funext i; unfold Stream.drop; simp] at this
      | succ d =>
        simp only [Nat.succ_ne_zero, if_false, Nat.add_sub_cancel]
        exact go d rfl rfl
    | eoi => exact Or.inr ⟨_, q, rfl, .eoi [] _ hnil ht rfl rfl (by simp)⟩
    | groupBegin => exact go (d + 1) rfl rfl
    | _ => exact go d (by unfold depthStep; simp [braceDepth]) rfl

end Verif

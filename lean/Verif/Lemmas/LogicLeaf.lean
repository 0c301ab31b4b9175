import Verif.Lemmas.LogicBase
import Verif.Lemmas.Letters
/-! Specifications of the remaining parts of the parser which are not recursive. -/
namespace Verif
open Model Spec Lexer' TokenQueue Logic

variable [L : Limits] {cfg : ParserConfig} {input : Str} {s : PState} {h : List Token} {α β : Type}

omit L in
theorem isFullStop_ne_eoi {t : Token} (h : t.isFullStop = true) : t.isEoi = false := by
  cases t <;> first | rfl | cases h

theorem plain_of_held {t : Token} (ht : TokHeld h t) (hr : ∀ src n cl a b, t ≠ .customCmdRef src n cl a b) :
    plain t = true := ht.resolve_right fun ⟨⟨_, _, _, _, _, _, e⟩, _⟩ => hr _ _ _ _ _ e

theorem digit_of_held {c : Char} (ht : TokHeld h (.digit c)) : isAsciiDigit c = true := by
  have := plain_of_held ht (by intros; exact nofun)
  simpa [plain, payloadOk] using this

theorem letter_of_held {c : SuperChar} {m} (ht : TokHeld h (.letter c m)) : LetterOk c := by
  have := plain_of_held ht (by intros; exact nofun)
  exact letterOkB_iff.1 (by simpa [plain, payloadOk] using this)

theorem uprightLetter_of_held {c : SuperChar} (ht : TokHeld h (.uprightLetter c)) : LetterOk c := by
  have := plain_of_held ht (by intros; exact nofun)
  exact letterOkB_iff.1 (by simpa [plain, payloadOk] using this)

omit L in
theorem plainText_snoc {a : Str} {c : Char} (ha : PlainText a) (hc : plainCharB c = true) : PlainText (a ++ [c]) := by
  rw [← plainText_iff] at ha ⊢
  simp only [plainStrB, List.all_append, List.all_cons, List.all_nil, Bool.and_true, Bool.and_eq_true] at ha ⊢
  exact ⟨ha, by simpa [plainCharB] using hc⟩

theorem wp_digitsLoop {fuel : Nat} {acc : Str} (hg : GP input s h) (hf : cnt s.q < fuel) (ha : PlainText acc) :
    (LP cfg input).Wp (digitsLoop fuel acc) s h fun r _ _ => PlainText r := by
  induction fuel generalizing s h acc with
  | zero => omega
  | succ fuel ih =>
    unfold digitsLoop
    refine Wp.peek_bind ?_
    split
    · rename_i c hc
      have hd : isAsciiDigit c = true := digit_of_held (by rw [← hc]; exact hg.peek.held)
      refine Wp.bind (wp_Pnext_peeked hg (by rw [hc]; rfl)) ?_
      rintro t s1 h1 - hg1 ⟨-, -, -, hlt⟩
      exact ih hg1 (by omega) (plainText_snoc ha (plainChar_digit hd))
    · split
      · rename_i hfs
        refine Wp.bind (wp_liftQ hg (wp_peekSecond hg.q)) ?_
        intro t2 s1 h1 hr1 hg1 hpk
        split
        · refine Wp.bind (wp_Pnext_peeked hg1 ?_) ?_
          · rw [hpk.2]; exact isFullStop_ne_eoi hfs
          rintro t s2 h2 - hg2 ⟨-, -, -, hlt⟩
          have := hr1.q.cnt
          exact ih hg2 (by omega) (plainText_snoc ha (by decide))
        · exact Wp.pure hg1 ha
      · exact Wp.pure hg ha

/-! ### Letters -/

theorem mergedChar_ok {tf : MathVariant} {t : Token} {c} (ht : TokHeld h t) (hc : mergedChar tf t = some c) :
    LetterOk c ∧ t.isEoi = false := by
  unfold mergedChar at hc
  split at hc
  · cases hc
    have := letter_of_held ht
    refine ⟨?_, rfl⟩
    split
    · exact this.transform
    · exact this
  · cases hc
    have := uprightLetter_of_held ht
    refine ⟨?_, rfl⟩
    split
    · exact this.transform
    · exact this
  · split at hc
    · cases hc
      exact ⟨(letterOk_fromChar (plainChar_digit (digit_of_held ht))).transform, rfl⟩
    · cases hc
  · cases hc

theorem wp_mergeLoop {tf : MathVariant} {fuel : Nat} {acc : List SuperChar} (hg : GP input s h) (hf : cnt s.q < fuel)
    (ha : ∀ c ∈ acc, LetterOk c) :
    (LP cfg input).Wp (mergeLoop tf fuel acc) s h fun r s' _ =>
      (∀ c ∈ r, LetterOk c) ∧ MU s' + r.length ≤ MU s + acc.length := by
  induction fuel generalizing s h acc with
  | zero => omega
  | succ fuel ih =>
    unfold mergeLoop
    refine Wp.peek_bind ?_
    split
    · rename_i c hc
      obtain ⟨hl, hne⟩ := mergedChar_ok hg.peek.held hc
      refine Wp.bind (wp_Pnext_peeked hg hne) ?_
      rintro t s1 h1 - hg1 ⟨-, -, hmu, hlt⟩
      refine (ih hg1 (by omega) ?_).mono ?_
      · intro x hx
        rcases List.mem_append.1 hx with hx | hx
        · exact ha x hx
        · rw [List.mem_singleton.1 hx]; exact hl
      · rintro r s2 h2 - - ⟨h3, h4⟩
        refine ⟨h3, ?_⟩
        simp only [List.length_append, List.length_cons, List.length_nil] at h4
        omega
    · exact Wp.pure hg ⟨ha, Nat.le_refl _⟩

/-- A letter, or several of them in one node -/
def LetterNode (n : Node) : Prop := (∃ c a, n = .identifierChar c a ∧ LetterOk c) ∨ ∃ t, n = .identifierStr t

theorem wp_merge (hg : GP input s h) :
    (LP cfg input).Wp mergeAndTransformLetters s h fun r s' _ =>
      ∀ c n, r = some (c, n) → LetterNode n ∧ MU s' + 1 ≤ MU s := by
  refine Wp.get_bind ?_
  split
  · exact Wp.pure hg nofun
  · refine Wp.loopFuel_bind ?_
    have := cnt_loopFuel s.q
    refine Wp.bind (wp_mergeLoop hg (by omega) (by simp)) ?_
    rintro r s1 h1 - hg1 ⟨h3, h4⟩
    split
    · exact Wp.pure hg1 nofun
    · rename_i c
      refine Wp.pure hg1 ?_
      intro c' n e; cases e
      refine ⟨Or.inl ⟨_, _, rfl, h3 c (by simp)⟩, ?_⟩
      simp at h4; omega
    · rename_i hne hne'
      refine Wp.pure hg1 ?_
      intro c' n e; cases e
      refine ⟨Or.inr ⟨_, rfl⟩, ?_⟩
      have : 1 ≤ r.length := by
        cases r with
        | nil => exact absurd rfl (hne ·)
        | cons => simp
      simp at h4; omega

theorem wp_parseDigit {c : Char} {pa} (hc : isAsciiDigit c = true) (hg : GP input s h) :
    (LP cfg input).Wp (parseDigit c pa) s h fun n _ _ => LetterNode n ∨ ∃ t, n = .number t ∧ PlainText t := by
  have hp : PlainText [c] := plainText_iff.1 (by simpa [plainStrB, plainCharB] using plainChar_digit hc)
  refine Wp.get_bind ?_
  split
  · exact Wp.pure hg (Or.inl (Or.inl ⟨_, _, rfl, (letterOk_fromChar (plainChar_digit hc)).transform⟩))
  · split
    · refine Wp.loopFuel_bind ?_
      have := cnt_loopFuel s.q
      refine Wp.bind (wp_digitsLoop hg (by omega) hp) fun r s1 h1 _ hg1 hr => ?_
      exact Wp.pure hg1 (Or.inr ⟨_, rfl, hr⟩)
    · exact Wp.pure hg (Or.inr ⟨_, rfl, hp⟩)

/-! ### Lengths -/

omit L in
theorem kernChar_ne_eoi {t : Token} {c} (h : kernChar t = some c) : t.isEoi = false := by
  cases t <;> first | rfl | cases h

omit L in
theorem unitChar_ne_eoi {t : Token} {c} (h : unitChar t = some c) : t.isEoi = false := by
  cases t <;> first | rfl | cases h

omit L in
theorem peek_of_any {q : TokenQueue} (hi : QInv q) (hne : q.peekAny.tok.isWs = false) : q.peek = q.peekAny := by
  obtain ⟨pre, t, post, hs, hl, -, hpre⟩ := hi.split
  rw [peek_eq hs hl]
  unfold peekAny peekAnyKeepingName at hne ⊢
  cases pre with
  | nil => rw [hs]; rfl
  | cons x xs =>
    rw [hs] at hne
    have := hpre x (by simp)
    simp only [List.cons_append, List.head?_cons, Option.getD_some, QueuedTok.ts] at hne
    rw [this] at hne; cases hne

omit L in
theorem kernChar_ne_ws {t : Token} {c} (h : kernChar t = some c) : t.isWs = false := by
  cases t <;> first | rfl | cases h

omit L in
theorem unitChar_ne_ws {t : Token} {c} (h : unitChar t = some c) : t.isWs = false := by
  cases t <;> first | rfl | cases h

theorem wp_kernLoop {fuel : Nat} {b buf st en} (hg : GP input s h) (hf : cnt s.q < fuel)
    (hst : ∀ p, st = some p → Bnd input p) (hen : Bnd input en) :
    (LP cfg input).Wp (kernLoop fuel b buf st en) s h fun r _ _ =>
      (∀ p, r.2.1 = some p → Bnd input p) ∧ Bnd input r.2.2 := by
  induction fuel generalizing s h b buf st en with
  | zero => omega
  | succ fuel ih =>
    have key : ∀ t : TokSpan, (t = s.q.peek ∨ t = s.q.peekAny) →
        (LP cfg input).Wp (match kernChar t.tok with
          | none => (pure (buf, st, en) : P (Str × Option Nat × Nat))
          | some c => P.next >>= fun t => kernLoop fuel true (buf ++ [c]) (st.or (some t.span.start)) t.span.stop) s h
          fun r _ _ => (∀ p, r.2.1 = some p → Bnd input p) ∧ Bnd input r.2.2 := by
      intro t ht
      split
      · exact Wp.pure hg ⟨hst, hen⟩
      · rename_i c hc
        have hne : s.q.peek.tok.isEoi = false := by
          rcases ht with rfl | rfl
          · exact kernChar_ne_eoi hc
          · rw [peek_of_any hg.q.inv (kernChar_ne_ws hc)]; exact kernChar_ne_eoi hc
        refine Wp.bind (wp_Pnext_peeked hg hne) ?_
        rintro t s1 h1 - hg1 ⟨hr, -, hmu, hlt⟩
        have hsp := hr.ok.span
        refine ih hg1 (by omega) ?_ hsp.2
        intro p hp
        cases st with
        | none => cases hp; exact hsp.1
        | some p' => cases hp; exact hst _ rfl
    unfold kernLoop
    cases b
    · exact key _ (Or.inl rfl)
    · exact key _ (Or.inr rfl)

theorem wp_kernSign {spanEnd} (hg : GP input s h) (hs : Bnd input spanEnd) :
    (LP cfg input).Wp (kernSign spanEnd) s h fun r _ _ =>
      (∀ p, r.2.1 = some p → Bnd input p) ∧ Bnd input r.2.2 := by
  unfold kernSign
  refine Wp.peek_bind ?_
  split
  · split
    · refine Wp.bind (wp_Pnext hg) ?_
      rintro t s1 h1 - hg1 ⟨hr, -⟩
      have hsp := hr.ok.span
      exact Wp.pure hg1 ⟨(by intro p hp; cases hp; exact hsp.1), hsp.2⟩
    · exact Wp.pure hg ⟨nofun, hs⟩
  · exact Wp.pure hg ⟨nofun, hs⟩

theorem wp_kernUnit {kind neg spanEnd buf st en} (hg : GP input s h) (hs : Bnd input spanEnd)
    (hst : ∀ p, st = some p → Bnd input p) (hen : Bnd input en) :
    (LP cfg input).Wp (kernUnit kind neg spanEnd buf st en) s h fun n _ _ => ∃ l, n = .space l := by
  have hst' : Bnd input (st.getD spanEnd) := by
    cases st with
    | none => exact hs
    | some p => exact hst p rfl
  unfold kernUnit
  split
  · exact wp_fail ⟨hst', hen⟩
  refine Wp.peek_bind ?_
  split
  · exact wp_fail ⟨hg.peek.span.1, hg.peek.span.1⟩
  refine Wp.bind (wp_Pnext hg) ?_
  rintro t1 s3 h3 - hg3 ⟨hr1, -⟩
  refine Wp.peekAny_bind ?_
  split
  · exact wp_fail ⟨hr1.ok.span.1, hg3.peekAny.span.1⟩
  refine Wp.bind (wp_Pnext hg3) ?_
  rintro t2 s4 h4 - hg4 ⟨hr2, -⟩
  have hu : SpanOk input ⟨t1.span.start, t2.span.stop⟩ := ⟨hr1.ok.span.1, hr2.ok.span.2⟩
  dsimp only
  split
  · exact wp_fail hu
  · split
    · exact wp_fail hu
    · split
      · exact wp_fail ⟨hst', hr2.ok.span.2⟩
      · exact Wp.pure hg4 ⟨_, rfl⟩

theorem wp_parseKernOrSkip {kind spanEnd} (hg : GP input s h) (hs : Bnd input spanEnd) :
    (LP cfg input).Wp (parseKernOrSkip kind spanEnd) s h fun n _ _ => ∃ l, n = .space l := by
  unfold parseKernOrSkip
  refine Wp.bind (wp_kernSign hg hs) ?_
  rintro ⟨neg, st, en⟩ s1 h1 - hg1 ⟨hst, hen⟩
  refine Wp.loopFuel_bind ?_
  have := cnt_loopFuel s1.q
  refine Wp.bind (wp_kernLoop hg1 (by omega) hst hen) ?_
  rintro ⟨buf, st, en⟩ s2 h2 - hg2 ⟨hst, hen⟩
  exact wp_kernUnit hg2 hs hst hen

/-! ### Definitions -/

theorem wp_parseNumArgs (hg : GP input s h) : (LP cfg input).Wp parseNumArgs s h fun n _ _ => n ≤ 9 := by
  unfold parseNumArgs
  refine Wp.peek_bind ?_
  split
  · refine Wp.bind (wp_Pnext hg) fun t s1 h1 _ hg1 hr1 => ?_
    refine Wp.bind (wp_Pnext hg1) fun t s2 h2 _ hg2 hr2 => ?_
    split
    · refine Wp.bind (wp_Pnext hg2) fun t s3 h3 _ hg3 hr3 => ?_
      split
      · refine Wp.pure hg3 ?_
        split
        · rename_i c _ _ _ hc
          simp only [isAsciiDigit, Bool.and_eq_true, decide_eq_true_eq] at hc
          have h1 : c.toNat ≤ '9'.toNat := hc.2
          have : '9'.toNat = '0'.toNat + 9 := rfl
          omega
        · omega
      · exact wp_fail hr3.1.ok.span
    · exact wp_fail hr2.1.ok.span
  · exact Wp.pure hg (Nat.zero_le _)

theorem wp_parseDefinitionBody (hg : GP input s h) :
    (LP cfg input).Wp parseDefinitionBody s h fun toks _ h' => ∀ t ∈ toks, QTokOk input h' t := by
  unfold parseDefinitionBody
  refine Wp.peek_bind ?_
  split
  · refine Wp.bind (wp_liftQ hg (wp_recordMacroBody hg.q)) fun toks s1 h1 hr1 hg1 ht => ?_
    refine Wp.bind (wp_Pnext hg1) fun t s2 h2 hr2 hg2 _ => ?_
    exact Wp.pure hg2 (qtoks_mono hr2.q.sub ht)
  · refine Wp.bind (wp_liftQ hg (wp_nextKeepingName hg.q)) fun t s1 h1 hr1 hg1 ht => ?_
    split
    · exact wp_fail ht.1.ok.span
    · refine Wp.pure hg1 ?_
      intro x hx; rw [List.mem_singleton.1 hx]; exact ht.1.ok

theorem wp_mapRecorded {toks : List QueuedTok} {n} (hg : GP input s h) (ht : ∀ t ∈ toks, QTokOk input h t) :
    (LP cfg input).Wp (St.ofExcept (mapRecordedTokens toks n)) s h fun r _ h' => BodyOk h' r.1 :=
  Wp.ofExcept hg (mapRecordedTokens_spec ht).1 (mapRecordedTokens_spec ht).2

theorem wp_definitionTarget {m : DefineMode} {t : QueuedTok} (hg : GP input s h) (ht : SpanOk input t.span) :
    (LP cfg input).Wp (St.ofExcept (definitionTarget m t)) s h fun r _ _ =>
      m = .renew → ∀ name replace, r = some (name, replace) → replace = true := by
  refine Wp.ofExcept hg ?_ ?_
  · rintro r hr rfl name replace rfl
    unfold definitionTarget at hr
    repeat' split at hr
    all_goals first | (cases hr; rfl) | (cases hr; done) | contradiction
  intro e he
  unfold definitionTarget at he
  repeat' split at he
  all_goals first | (cases he; exact ht.err _) | cases he

theorem wp_nameBrace (hg : GP input s h) : (LP cfg input).Wp nameBrace s h fun _ _ _ => True := by
  unfold nameBrace
  refine Wp.peek_bind ?_
  split
  · exact Wp.bind (wp_Pnext hg) fun t s1 h1 _ hg1 _ => Wp.pure hg1 trivial
  · exact Wp.pure hg trivial

theorem wp_nameBraceEnd {b} (hg : GP input s h) : (LP cfg input).Wp (nameBraceEnd b) s h fun _ _ _ => True := by
  unfold nameBraceEnd
  split
  · refine Wp.bind (wp_Pnext hg) fun t s1 h1 _ hg1 hr => ?_
    split
    · exact Wp.pure hg1 trivial
    · exact wp_fail hr.1.ok.span
  · exact Wp.pure hg trivial

theorem wp_liftDefine {name n body cls replace isGlobal} (hg : GP input s h) (hn : n ≤ 9) (hb : BodyOk h body)
    (hgl : isGlobal = true → L.noGlobal = false) :
    (LP cfg input).Wp (liftQ (define name n body cls replace isGlobal)) s h fun ok _ _ => replace = true → ok = true :=
  wp_liftQ hg (wp_define hg.q hn hb hgl)

theorem wp_defineCommand {m : DefineMode} (hg : GP input s h) (hm : m = .renew ∨ L.noNew = false) :
    (LP cfg input).Wp (defineCommand m) s h fun _ _ _ => True := by
  unfold defineCommand
  refine Wp.bind (wp_nameBrace hg) fun b s1 h1 _ hg1 _ => ?_
  refine Wp.bind (wp_liftQ hg1 (wp_nextAllowing hg1.q)) fun t s2 h2 _ hg2 ht => ?_
  refine Wp.bind (wp_definitionTarget hg2 ht.1.ok.span) fun target s3 h3 _ hg3 htar => ?_
  refine Wp.bind (wp_nameBraceEnd hg3) fun _ s4 h4 _ hg4 _ => ?_
  refine Wp.bind (wp_parseNumArgs hg4) fun n s5 h5 _ hg5 hn => ?_
  refine Wp.bind (wp_parseDefinitionBody hg5) fun toks s6 h6 _ hg6 htoks => ?_
  refine Wp.bind (wp_mapRecorded hg6 htoks) ?_
  rintro ⟨body, cls⟩ s7 h7 - hg7 hb
  dsimp only
  split
  · exact Wp.pure hg7 trivial
  · refine Wp.bind (wp_liftDefine hg7 hn hb nofun) fun ok s8 h8 _ hg8 hok => ?_
    split
    · exact Wp.pure hg8 trivial
    · rename_i hne
      refine wp_fail ht.1.ok.span fun _ => ?_
      rcases hm with hm | hm
      · exact absurd (hok (htar hm _ _ rfl)) hne
      · exact Or.inr hm

omit L in
theorem isWs_ne_eoi {t : Token} (h : t.isWs = true) : t.isEoi = false := by
  cases t <;> first | rfl | cases h

theorem wp_skipWs {fuel} (hg : GP input s h) (hf : cnt s.q < fuel) :
    (LP cfg input).Wp (skipWs fuel) s h fun _ _ _ => True := by
  induction fuel generalizing s h with
  | zero => omega
  | succ fuel ih =>
    unfold skipWs
    refine Wp.peekAny_bind ?_
    split
    · rename_i hw
      refine Wp.bind (wp_PnextAny_peeked hg (isWs_ne_eoi hw)) ?_
      rintro t s1 h1 - hg1 ⟨-, -, -, hlt⟩
      exact ih hg1 (by omega)
    · exact Wp.pure hg trivial

theorem wp_paramLoop {fuel n} (hg : GP input s h) (hf : cnt s.q < fuel) (hn : n ≤ 9) :
    (LP cfg input).Wp (paramLoop fuel n) s h fun n _ _ => n ≤ 9 := by
  induction fuel generalizing s h n with
  | zero => omega
  | succ fuel ih =>
    unfold paramLoop
    refine Wp.peekAny_bind ?_
    split
    · exact Wp.pure hg hn
    · rename_i hk
      split
      · exact wp_fail hg.peekAny.span
      · rename_i hne
        have hp : plain (.customCmdArgInput n) = true := by
          rcases hg.peekAny.held with h1 | ⟨⟨_, _, _, _, _, -, h1⟩, -⟩
          · rw [hk] at h1
            rwa [Classical.not_not.1 hne] at h1
          · rw [hk] at h1; cases h1
        have hlt9 : n < 9 := by simpa [plain, payloadOk] using hp
        refine Wp.bind (wp_PnextAny_peeked hg (by rw [hk]; rfl)) ?_
        rintro t s1 h1 - hg1 ⟨-, -, -, hlt⟩
        exact ih hg1 (by omega) (by omega)
    · exact wp_fail hg.peekAny.span
    · exact wp_fail hg.peekAny.span

theorem wp_defCommand {g} (hg : GP input s h) (hgl : g = true → L.noGlobal = false) :
    (LP cfg input).Wp (defCommand g) s h fun _ _ _ => True := by
  unfold defCommand
  refine Wp.bind (wp_liftQ hg (wp_readDefinitionName hg.q)) fun name s1 h1 _ hg1 _ => ?_
  refine Wp.loopFuel_bind ?_
  have := cnt_loopFuel s1.q
  refine Wp.bind (wp_skipWs hg1 (by omega)) fun _ s2 h2 _ hg2 _ => ?_
  refine Wp.loopFuel_bind ?_
  have := cnt_loopFuel s2.q
  refine Wp.bind (wp_paramLoop hg2 (by omega) (Nat.zero_le _)) fun n s3 h3 _ hg3 hn => ?_
  refine Wp.bind (wp_liftQ hg3 (wp_recordMacroBody hg3.q)) fun toks s4 h4 _ hg4 ht => ?_
  refine Wp.bind (wp_Pnext hg4) fun _ s5 h5 hr5 hg5 _ => ?_
  refine Wp.bind (wp_mapRecorded hg5 (qtoks_mono hr5.q.sub ht)) ?_
  rintro ⟨body, cls⟩ s6 h6 - hg6 hb
  exact Wp.bind (wp_liftDefine hg6 hn hb hgl) fun _ s7 h7 _ hg7 _ => Wp.pure hg7 trivial

theorem wp_skipEquals (hg : GP input s h) : (LP cfg input).Wp skipEquals s h fun _ _ _ => True := by
  unfold skipEquals
  refine Wp.peek_bind ?_
  split
  · exact Wp.bind (wp_Pnext hg) fun t s1 h1 _ hg1 _ => Wp.pure hg1 trivial
  · exact Wp.pure hg trivial

theorem BodyOk.single {t : Token} (ht : TokHeld h t) : BodyOk h [.token t] := by
  obtain ⟨item, h1, h2⟩ := item_of_held ht
  exact BodyOk.cons h1 h2 (BodyOk.nil h)

theorem wp_letCommand {g} (hg : GP input s h) (hgl : g = true → L.noGlobal = false) :
    (LP cfg input).Wp (letCommand g) s h fun _ _ _ => True := by
  unfold letCommand
  refine Wp.bind (wp_liftQ hg (wp_readDefinitionName hg.q)) fun name s1 h1 _ hg1 _ => ?_
  refine Wp.bind (wp_skipEquals hg1) fun _ s2 h2 _ hg2 _ => ?_
  refine Wp.bind (wp_Pnext hg2) fun t s3 h3 _ hg3 ht => ?_
  split
  · exact wp_fail ht.1.ok.span
  · exact wp_fail ht.1.ok.span
  · exact Wp.bind (wp_liftDefine hg3 (Nat.zero_le _) (BodyOk.single ht.1.ok.held) hgl) fun _ s4 h4 _ hg4 _ => Wp.pure hg4 trivial

theorem wp_globalPrefix {fuel} (hg : GP input s h) (hf : cnt s.q < fuel) (hgl : L.noGlobal = false) :
    (LP cfg input).Wp (globalPrefix fuel) s h fun _ _ _ => True := by
  induction fuel generalizing s h with
  | zero => omega
  | succ fuel ih =>
    unfold globalPrefix
    refine Wp.bind (wp_Pnext hg) fun t s1 h1 _ hg1 ht => ?_
    split
    · exact wp_letCommand hg1 fun _ => hgl
    · exact wp_defCommand hg1 fun _ => hgl
    · rename_i hk
      have := read_lt ht.1 (by rw [hk]; rfl)
      exact ih hg1 (by omega)
    · exact wp_fail ht.1.ok.span
    · exact wp_fail ht.1.ok.span

/-! ### Arguments -/

omit L in
theorem Wp.modify {σ : Type} {L : Logic σ} {g : σ → σ} {s : σ} {h h'} {Q : Unit → σ → List Token → Prop}
    (hr : L.rel s h (g s) h') (hi : L.inv (g s) h') (hq : Q () (g s) h') : L.Wp (St.modify g) s h Q :=
  Wp.ok (a := ()) (s' := g s) rfl ⟨h', hr, hi, hq⟩

/-- Only the arguments collected so far change. -/
theorem RP.args {cfg s h a} : RP cfg s h { s with cmdArgs := a } h := ⟨RQ.refl .., rfl, rfl⟩

theorem wp_collectCmdArg {t : QueuedTok} (hg : GP input s h) (ht : QTokOk input h t) :
    (LP cfg input).Wp (collectCmdArg t) s h fun _ s' _ =>
      wsum weight s'.cmdArgs.tokens + MU s' ≤ wsum weight s.cmdArgs.tokens + MU s + weight t.tok ∧
      t.tok.isEoi = false := by
  unfold collectCmdArg
  split
  · rename_i hb
    refine Wp.bind (wp_liftQ_frame hg (wp_recordGroup hg.q)) ?_
    · rintro ⟨toks, en⟩ s1 h1 hr1 hg1 ⟨hgr, hfr⟩
      have hcm : s1.cmdArgs = s.cmdArgs := by rw [hfr]
      refine Wp.modify (h' := h1) RP.args ⟨hg1.q, ?_, hg1.label⟩ ⟨?_, by rw [hb]; rfl⟩
      · intro x hx
        rcases List.mem_append.1 hx with hx | hx
        · exact hg1.args x hx
        · exact hgr.toks x hx
      · have := hgr.mu
        simp only [wsum_nil, hcm, wsum_append, MU] at this ⊢
        omega
  · exact wp_fail ht.span
  · rename_i hb hb'
    refine Wp.modify (h' := h) RP.args ⟨hg.q, ?_, hg.label⟩ ⟨?_, ?_⟩
    · exact qtoks_snoc hg.args ht
    · show wsum weight (s.cmdArgs.tokens ++ [t]) + _ ≤ _
      rw [wsum_append, wsum_cons, wsum_nil]
      show _ + mu weight 4 s.q ≤ _ + mu weight 4 s.q + _
      omega
    · cases hk : t.tok <;> first | rfl | exact absurd hk hb'

theorem wp_readCmdArg {i} (hg : GP input s h) :
    (LP cfg input).Wp (readCmdArg i) s h fun _ s' _ =>
      wsum weight s'.cmdArgs.tokens + MU s' ≤ wsum weight s.cmdArgs.tokens + MU s ∧ MU s' + 1 ≤ MU s := by
  unfold readCmdArg
  refine Wp.bind (wp_liftQ_frame hg (wp_nextKeepingName hg.q)) ?_
  rintro t s1 h1 - hg1 ⟨⟨ht, -, -⟩, hfr⟩
  have hcm : s1.cmdArgs = s.cmdArgs := by rw [hfr]
  refine Wp.bind (wp_collectCmdArg hg1 ht.ok) ?_
  rintro _ s2 h2 hr2 hg2 ⟨h3, h4⟩
  have h5 := ht.mu
  have h6 := tokWeight_pos h4
  have h7 := hr2.q.mu
  refine Wp.modify (h' := h2) RP.args ⟨hg2.q, hg2.args, hg2.label⟩ ⟨?_, ?_⟩
  · rw [hcm] at h3
    show wsum weight s2.cmdArgs.tokens + mu weight 4 s2.q ≤ _
    simp only [MU] at *
    omega
  · show mu weight 4 s2.q + 1 ≤ mu weight 4 s.q
    omega

theorem wp_readCmdArgsFrom {n i} (hg : GP input s h) :
    (LP cfg input).Wp (readCmdArgsFrom n i) s h fun _ s' _ =>
      wsum weight s'.cmdArgs.tokens + MU s' ≤ wsum weight s.cmdArgs.tokens + MU s ∧ MU s' + n ≤ MU s := by
  induction n generalizing s h i with
  | zero => exact Wp.pure hg ⟨Nat.le_refl _, Nat.le_refl _⟩
  | succ n ih =>
    unfold readCmdArgsFrom
    refine Wp.bind (wp_readCmdArg hg) ?_
    rintro _ s1 h1 - hg1 ⟨h2, h3⟩
    refine (ih hg1).mono ?_
    rintro _ s2 h2 - - ⟨h4, h5⟩
    exact ⟨by omega, by omega⟩

theorem wp_readCmdArgs {n} (hg : GP input s h) :
    (LP cfg input).Wp (readCmdArgs n) s h fun _ s' _ =>
      wsum weight s'.cmdArgs.tokens + MU s' ≤ MU s ∧ MU s' + n ≤ MU s := by
  unfold readCmdArgs
  refine Wp.modify_bind (h' := h) RP.args ?_
  refine (wp_readCmdArgsFrom (s := { s with cmdArgs := s.cmdArgs.clear })
    ⟨hg.q, (by intro t (ht : t ∈ []); cases ht), hg.label⟩).mono ?_
  rintro _ s2 h2 - - ⟨h4, h5⟩
  simp only [CmdArgs.clear, wsum_nil, MU] at h4 h5 ⊢
  exact ⟨by omega, by omega⟩

/-! ### Colours -/

omit L in
theorem bind_assoc' {σ α β γ : Type} (m : St σ α) (f : α → St σ β) (g : β → St σ γ) :
    (m >>= f) >>= g = m >>= fun a => f a >>= g := by
  funext cfg s
  show St.bind (St.bind m f) g cfg s = St.bind m (fun a => St.bind (f a) g) cfg s
  unfold St.bind
  cases m cfg s <;> rfl

omit L in
/-- Looking at the result of a step: whoever continues after an error must fail at once. -/
theorem Wp.attempt_bind {σ : Type} {L : Logic σ} {m : St σ α} {f : Except LatexError α → St σ β} {s : σ} {h}
    {P : α → σ → List Token → Prop} {Q : β → σ → List Token → Prop} (hm : L.Wp m s h P)
    (hok : ∀ a s' h', L.rel s h s' h' → L.inv s' h' → P a s' h' → L.Wp (f (.ok a)) s' h' Q)
    (herr : ∀ e, ∃ e', L.good e' ∧ ∀ s', f (.error e) L.cfg s' = .err e' s') :
    L.Wp (St.attempt m >>= f) s h Q := by
  rcases hm.outcome with ⟨a, s', h', hr, h1, h2, h3⟩ | ⟨e, s', h', hr, h1, h2⟩
  · refine Wp.after (m' := f (.ok a)) (s' := s') ?_ h1 (hok a s' h' h1 h2 h3)
    show St.bind (St.attempt m) f L.cfg s = _
    unfold St.bind St.attempt
    rw [hr]
  · obtain ⟨e', h3, h4⟩ := herr e
    refine Wp.err (e := e') (s' := s') ?_ ⟨h', h1, h3⟩
    show St.bind (St.attempt m) f L.cfg s = _
    unfold St.bind St.attempt
    rw [hr]; exact h4 s'

theorem wp_colorTypeLoop {fuel acc} {f : Bool × Str → P β} {Q : β → PState → List Token → Prop} (hg : GP input s h)
    (hf : cnt s.q < fuel) (herr : ∀ acc, ∃ e', ErrGood input e' ∧ ∀ s', f (false, acc) cfg s' = .err e' s')
    (hok : ∀ acc s' h', GP input s' h' → (LP cfg input).Wp (f (true, acc)) s' h' Q) :
    (LP cfg input).Wp (colorTypeLoop fuel acc >>= f) s h Q := by
  induction fuel generalizing s h acc with
  | zero => omega
  | succ fuel ih =>
    unfold colorTypeLoop
    rw [bind_assoc']
    refine Wp.attempt_bind (wp_Pnext hg) ?_ ?_
    · rintro t s1 h1 - hg1 ⟨ht, -⟩
      have hfail : ∀ acc, (LP cfg input).Wp (f (false, acc)) s1 h1 Q := by
        intro acc
        obtain ⟨e', h2, h3⟩ := herr acc
        exact Wp.err (h3 s1) ⟨h1, RP.refl .., h2⟩
      dsimp only
      split
      · rename_i hk
        have := read_lt ht (by rw [hk]; rfl)
        exact ih hg1 (by omega)
      · exact hok _ _ _ hg1
      · exact hfail _
    · intro e
      exact herr acc

theorem wp_parseColor {sp : Span} (hg : GP input s h) (hs : SpanOk input sp) :
    (LP cfg input).Wp (parseColor sp) s h fun _ _ _ => True := by
  unfold parseColor
  refine Wp.peek_bind ?_
  split
  · refine Wp.bind (wp_Pnext hg) fun _ s1 h1 _ hg1 _ => ?_
    refine Wp.loopFuel_bind ?_
    have := cnt_loopFuel s1.q
    refine wp_colorTypeLoop hg1 (by omega) ?_ ?_
    · intro acc; exact ⟨_, hs.err _, fun _ => rfl⟩
    · intro acc s2 h2 hg2
      refine Wp.attempt_bind (wp_parseStringLiteral hg2) ?_ ?_
      · rintro ⟨str, sp'⟩ s3 h3 - hg3 ⟨-, hsp⟩
        dsimp only
        split
        · exact Wp.pure hg3 trivial
        · exact wp_fail hsp
        · exact wp_fail hsp
      · intro e; exact ⟨_, hs.err _, fun _ => rfl⟩
  · refine Wp.bind (wp_parseStringLiteral hg) ?_
    rintro ⟨str, sp'⟩ s3 h3 - hg3 ⟨-, hsp⟩
    dsimp only
    split
    · exact Wp.pure hg3 trivial
    · exact wp_fail hsp

/-! ### Primes -/

theorem wp_primesLoop {fuel ps} (hg : GP input s h) (hf : cnt s.q < fuel) :
    (LP cfg input).Wp (primesLoop fuel ps) s h fun r s' _ =>
      (r.2 = true → s'.q.peekAny.tok.unwrapMath = .circumflex) := by
  induction fuel generalizing s h ps with
  | zero => omega
  | succ fuel ih =>
    unfold primesLoop
    refine Wp.peekAny_bind ?_
    split
    · rename_i k hk
      have hne : s.q.peekAny.tok.isEoi = false := by
        cases ht : s.q.peekAny.tok <;> first | rfl | (rw [ht] at hk; cases hk)
      refine Wp.bind (wp_PnextAny_peeked hg hne) ?_
      rintro t s1 h1 - hg1 ⟨-, -, -, hlt⟩
      exact ih hg1 (by omega)
    · rename_i hk
      exact Wp.pure hg fun _ => hk
    · exact Wp.pure hg nofun

/-! ### Text -/

theorem wp_textRead {b : Bool} (hg : GP input s h) :
    (LP cfg input).Wp (if b then P.nextAny else P.next) s h fun t s' h' => Read cfg input s.q t s'.q h' := by
  cases b
  · exact (wp_Pnext hg).mono fun _ _ _ _ _ h => h.1
  · exact (wp_PnextAny hg).mono fun _ _ _ _ _ h => h.1

omit L in
theorem textStep_eoi {b : Bool} {t : Token} {ts : TextState} (h : t.isEoi = true) : ∃ k, textStep b t ts = .fail k := by
  cases t <;> first | exact ⟨_, rfl⟩ | cases h

omit L in
theorem textStep_kind {b : Bool} {t : Token} {ts : TextState} {k} (h : textStep b t ts = .fail k) : k ≠ .internal := by
  intro hk
  subst hk
  unfold textStep textStepMath at h
  repeat' split at h
  all_goals first
    | (cases h; done)
    | (injection h with h; split at h <;> cases h; done)

omit L in
theorem extractTextLoop_succ (b : Bool) (fuel : Nat) (t : TextState) :
    extractTextLoop b (fuel + 1) t =
      if t.styles.isEmpty then pure t.snippets
      else (if b then P.nextAny else P.next) >>= fun tok =>
        match textStep b tok.tok t with
        | .next t => extractTextLoop b fuel t
        | .fail k => P.fail tok.span k
        | .raise t => parseRaise >>= fun new =>
          extractTextLoop b fuel (t.enter t.top.2.1 (some (match t.top.2.2 with
            | some current => current.add new
            | none => new))) := by
  cases b <;> rfl

theorem wp_extractTextLoop {b fuel ts} (hg : GP input s h) (hf : cnt s.q < fuel) :
    (LP cfg input).Wp (extractTextLoop b fuel ts) s h fun _ _ _ => True := by
  induction fuel generalizing s h ts with
  | zero => omega
  | succ fuel ih =>
    rw [extractTextLoop_succ]
    split
    · exact Wp.pure hg trivial
    · refine Wp.bind (wp_textRead hg) fun t s1 h1 _ hg1 ht => ?_
      cases hne : t.tok.isEoi with
      | true =>
        obtain ⟨k, hk⟩ := textStep_eoi (b := b) (ts := ts) hne
        rw [hk]
        exact wp_fail ht.ok.span fun hi => absurd hi (textStep_kind hk)
      | false =>
        have := read_lt ht hne
        split
        · exact ih hg1 (by omega)
        · rename_i hk
          exact wp_fail ht.ok.span fun hi => absurd hi (textStep_kind hk)
        · refine Wp.bind (wp_parseRaise hg1) fun _ s2 h2 hr2 hg2 _ => ?_
          have := hr2.q.cnt
          exact ih hg2 (by omega)

theorem wp_extractText {st v b} (hg : GP input s h) :
    (LP cfg input).Wp (extractText st v b) s h fun _ _ _ => True := by
  unfold extractText
  refine Wp.loopFuel_bind ?_
  have := cnt_loopFuel s.q
  exact wp_extractTextLoop hg (by omega)

/-! ### Tags -/

theorem wp_setTag {sp p} (hg : GP input s h) (hs : SpanOk input sp) :
    (LP cfg input).Wp (setTag sp p) s h fun _ _ _ => True := by
  unfold setTag
  refine Wp.bind (wp_parseStringLiteral hg) ?_
  rintro ⟨str, sp'⟩ s1 h1 - hg1 -
  refine Wp.get_bind ?_
  split
  · rename_i n hn
    refine Wp.modify (h' := h1) ⟨RQ.refl .., rfl, ?_⟩ ⟨hg1.q, hg1.args, ?_⟩ trivial
    · simp [mode, envSig, hn]
    · intro n' l e hl; cases e; exact hg1.label n l hn hl
  · exact wp_fail hs

theorem wp_setLabel {sp} (hg : GP input s h) (hs : SpanOk input sp) :
    (LP cfg input).Wp (setLabel sp) s h fun _ _ _ => True := by
  unfold setLabel
  refine Wp.bind (wp_parseStringLiteral hg) ?_
  rintro ⟨str, sp'⟩ s1 h1 - hg1 ⟨hamp, -⟩
  refine Wp.get_bind ?_
  split
  · rename_i n hn
    split
    · exact wp_fail hs
    · refine Wp.modify (h' := h1) ⟨RQ.refl .., rfl, ?_⟩ ⟨hg1.q, hg1.args, ?_⟩ trivial
      · simp [mode, envSig, hn]
      · intro n' l e hl; cases e; cases hl; exact hamp
  · exact wp_fail hs

theorem wp_noNumber (hg : GP input s h) :
    (LP cfg input).Wp (St.modify fun s =>
      { s with env := { s.env with numbered := s.env.numbered.map fun n =>
          { n with suppressNextNumber := true } } }) s h fun _ _ _ => True := by
  refine Wp.modify (h' := h) ⟨RQ.refl .., rfl, ?_⟩ ⟨hg.q, hg.args, ?_⟩ trivial
  · simp [mode, envSig, Function.comp_def]
  · intro n' l e hl
    rw [Option.map_eq_some_iff] at e
    obtain ⟨n, hn, rfl⟩ := e
    exact hg.label n l hn hl

end Verif

import Verif.Lemmas.Weights
import Verif.Lemmas.Stores
/-! A small program logic for the parser: what every step preserves, and how the definitions made along the
way are accounted for. -/
namespace Verif
open Model Spec Lexer' TokenQueue

/-- What every step of some computations preserves: an invariant `inv`, a relation `rel` between the states
before and after (both with the tokens which have been looked up so far), and what errors are like. -/
structure Logic (σ : Type) where
  cfg : ParserConfig
  inv : σ → List Token → Prop
  rel : σ → List Token → σ → List Token → Prop
  good : LatexError → Prop
  refl : ∀ s h, rel s h s h
  trans : ∀ {s h s1 h1 s2 h2}, rel s h s1 h1 → rel s1 h1 s2 h2 → rel s h s2 h2

namespace Logic
variable {σ α β : Type} {L : Logic σ}

/-- The computation neither panics nor runs out of fuel; if it succeeds, then the result satisfies `Q`. -/
def Wp (L : Logic σ) (m : St σ α) (s : σ) (h : List Token) (Q : α → σ → List Token → Prop) : Prop :=
  match m L.cfg s with
  | .ok a s' => ∃ h', L.rel s h s' h' ∧ L.inv s' h' ∧ Q a s' h'
  | .err e s' => ∃ h', L.rel s h s' h' ∧ L.good e
  | .panic => False
  | .fuel => False

theorem Wp.ok {m : St σ α} {s h Q a s'} (hm : m L.cfg s = .ok a s')
    (hx : ∃ h', L.rel s h s' h' ∧ L.inv s' h' ∧ Q a s' h') : L.Wp m s h Q := by
  unfold Wp; rw [hm]; exact hx

theorem Wp.err {m : St σ α} {s h Q e s'} (hm : m L.cfg s = .err e s')
    (hx : ∃ h', L.rel s h s' h' ∧ L.good e) : L.Wp m s h Q := by
  unfold Wp; rw [hm]; exact hx

theorem Wp.outcome {m : St σ α} {s h Q} (hm : L.Wp m s h Q) :
    (∃ a s' h', m L.cfg s = .ok a s' ∧ L.rel s h s' h' ∧ L.inv s' h' ∧ Q a s' h') ∨
    (∃ e s' h', m L.cfg s = .err e s' ∧ L.rel s h s' h' ∧ L.good e) := by
  unfold Wp at hm
  cases hr : m L.cfg s with
  | ok a s' => rw [hr] at hm; obtain ⟨h', h1⟩ := hm; exact Or.inl ⟨a, s', h', rfl, h1⟩
  | err e s' => rw [hr] at hm; obtain ⟨h', h1⟩ := hm; exact Or.inr ⟨e, s', h', rfl, h1⟩
  | panic => rw [hr] at hm; exact hm.elim
  | fuel => rw [hr] at hm; exact hm.elim

theorem Wp.pure {s h a} {Q : α → σ → List Token → Prop} (hi : L.inv s h) (hq : Q a s h) :
    L.Wp (Pure.pure a : St σ α) s h Q := ⟨h, L.refl _ _, hi, hq⟩

theorem Wp.throw {s h e} {Q : α → σ → List Token → Prop} (hg : L.good e) :
    L.Wp (St.throw e : St σ α) s h Q := ⟨h, L.refl _ _, hg⟩

theorem Wp.mono {m : St σ α} {s h} {Q Q' : α → σ → List Token → Prop} (hm : L.Wp m s h Q)
    (hq : ∀ a s' h', L.rel s h s' h' → L.inv s' h' → Q a s' h' → Q' a s' h') : L.Wp m s h Q' := by
  unfold Wp at hm ⊢
  split <;> rename_i hr <;> rw [hr] at hm
  · obtain ⟨h', h1, h2, h3⟩ := hm
    exact ⟨h', h1, h2, hq _ _ _ h1 h2 h3⟩
  · exact hm
  · exact hm
  · exact hm

theorem Wp.bind {m : St σ α} {f : α → St σ β} {s h} {P : α → σ → List Token → Prop}
    {Q : β → σ → List Token → Prop} (hm : L.Wp m s h P)
    (hf : ∀ a s' h', L.rel s h s' h' → L.inv s' h' → P a s' h' → L.Wp (f a) s' h' Q) :
    L.Wp (m >>= f) s h Q := by
  unfold Wp at hm ⊢
  show match St.bind m f L.cfg s with
    | .ok a s' => _ | .err e s' => _ | .panic => _ | .fuel => _
  unfold St.bind
  cases hr : m L.cfg s with
  | ok a s' =>
    rw [hr] at hm
    obtain ⟨h1, hr1, hi1, hp1⟩ := hm
    have := hf a s' h1 hr1 hi1 hp1
    unfold Wp at this
    simp only
    split <;> rename_i hr2 <;> rw [hr2] at this
    · obtain ⟨h2, hr2, hi2, hq2⟩ := this
      exact ⟨h2, L.trans hr1 hr2, hi2, hq2⟩
    · obtain ⟨h2, hr2, hi2⟩ := this
      exact ⟨h2, L.trans hr1 hr2, hi2⟩
    · exact this
    · exact this
  | err e s' => rw [hr] at hm; exact hm
  | panic => rw [hr] at hm; exact hm
  | fuel => rw [hr] at hm; exact hm

theorem Wp.get_bind {f : σ → St σ β} {s h} {Q : β → σ → List Token → Prop} (hf : L.Wp (f s) s h Q) :
    L.Wp (St.get >>= f) s h Q := hf

theorem Wp.config_bind {f : ParserConfig → St σ β} {s h} {Q : β → σ → List Token → Prop} (hf : L.Wp (f L.cfg) s h Q) :
    L.Wp (St.config >>= f) s h Q := hf

/-- After a change of the state which the relation allows -/
theorem Wp.after {m : St σ α} {m' : St σ α} {s h s' h'} {Q : α → σ → List Token → Prop}
    (hm : m L.cfg s = m' L.cfg s') (hr : L.rel s h s' h') (hf : L.Wp m' s' h' Q) :
    L.Wp m s h Q := by
  unfold Wp at hf ⊢
  rw [hm]
  split <;> rename_i hx <;> rw [hx] at hf
  · obtain ⟨h2, hr2, hi2, hq2⟩ := hf
    exact ⟨h2, L.trans hr hr2, hi2, hq2⟩
  · obtain ⟨h2, hr2, hi2⟩ := hf
    exact ⟨h2, L.trans hr hr2, hi2⟩
  · exact hf
  · exact hf

theorem Wp.modify_bind {g : σ → σ} {f : Unit → St σ β} {s h h'} {Q : β → σ → List Token → Prop}
    (hr : L.rel s h (g s) h') (hf : L.Wp (f ()) (g s) h' Q) : L.Wp (St.modify g >>= f) s h Q :=
  Wp.after (m' := f ()) rfl hr hf

theorem Wp.ofExcept {r : Except LatexError α} {s h} {Q : α → σ → List Token → Prop} (hi : L.inv s h)
    (hok : ∀ a, r = .ok a → Q a s h) (herr : ∀ e, r = .error e → L.good e) : L.Wp (St.ofExcept r) s h Q := by
  cases r with
  | ok a => exact Wp.pure hi (hok a rfl)
  | error e => exact Wp.throw (herr e rfl)

end Logic

/-! ### Errors of the tokeniser -/

theorem tokenAt_kind {l : Lexer} {loc ch e} (h : l.tokenAt loc ch = .error e) : e.kind ≠ .internal := by
  intro hk
  unfold Lexer.tokenAt at h
  split at h
  · cases h; cases hk
  · split at h
    · unfold Lexer.paramToken at h
      (repeat' split at h) <;> first | (cases h; done) | (cases h; cases hk)
    · split at h
      · have key : ∀ (l : Lexer) s mk, Lexer.envMarker l s mk = .error e → False := by
          intro l s mk h
          unfold Lexer.envMarker at h
          dsimp only at h
          cases hr : l.skipWhitespace.2.readEnvName with
          | error x =>
            rw [hr] at h
            obtain ⟨o, sp⟩ := x
            cases o <;> (cases h; cases hk)
          | ok x =>
            rw [hr] at h
            dsimp only at h
            split at h <;> (cases h; try cases hk)
        unfold Lexer.parseEnvMarker at h
        (repeat' split at h) <;> first | exact key _ _ _ h | (cases h; done) | (cases h; cases hk)
      · cases h

theorem nextTokenFuel_kind {fuel : Nat} {l : Lexer} {e} (h : Lexer.nextTokenFuel fuel l = .error e) :
    e.kind ≠ .internal := by
  induction fuel generalizing l with
  | zero => cases h
  | succ fuel ih =>
    unfold Lexer.nextTokenFuel at h
    (repeat' split at h) <;> first | (cases h; done) | exact ih h | exact tokenAt_kind h

variable [L : Limits] {cfg : ParserConfig}

/-! ### Positions in the source -/

/-- The position is between two characters of the source, or at one of its ends. -/
def Bnd (input : Str) (p : Nat) : Prop := ∃ pre post, input = pre ++ post ∧ blen pre = p

/-- Both ends of the span are positions in the source. -/
def SpanOk (input : Str) (s : Span) : Prop := Bnd input s.start ∧ Bnd input s.stop

/-- Both ends of the range which the error reports are positions in the source. -/
def ErrOk (input : Str) (e : LatexError) : Prop := Bnd input e.start ∧ Bnd input e.stop

omit L in
theorem bnd_zero (input) : Bnd input 0 := ⟨[], input, rfl, rfl⟩

omit L in
theorem spanOk_zero (input) : SpanOk input ⟨0, 0⟩ := ⟨bnd_zero _, bnd_zero _⟩

/-- An internal error is possible. -/
def MayFail : Prop := L.noBars = false ∨ L.noNew = false

/-- What errors are like: they point into the source, and internal errors are only possible with certain commands. -/
structure ErrGood (input : Str) (e : LatexError) : Prop where
  inside : ErrOk input e
  kind : e.kind = .internal → MayFail

theorem SpanOk.err {input s} (h : SpanOk input s) (k) (hk : k = .internal → MayFail := by exact nofun) :
    ErrGood input (s.err k) := ⟨h, hk⟩

/-- The tokeniser is at a position of the source. -/
def LexAt0 (input : Str) (l : Lexer) : Prop := ∃ pre, input = pre ++ l.rest ∧ l.pos = blen pre

/-- None of the names in the rest of the source is excluded. -/
def NamesOk (l : Lexer) : Prop := ∀ i name span, nthLexed i l = .ok (.commandName name span) → nameOk name = true

theorem NamesOk.next {l out l'} (h : NamesOk l) (he : l.nextToken = .ok (out, l')) : NamesOk l' := by
  intro i name span hi
  refine h (i + 1) name span ?_
  unfold nthLexed
  rw [he]; exact hi

theorem NamesOk.first {l name span l'} (h : NamesOk l) (he : l.nextToken = .ok (.commandName name span, l')) :
    nameOk name = true := by
  refine h 0 name span ?_
  unfold nthLexed
  rw [he]; rfl

/-- The tokeniser is at a position of the source, and none of the names after it is excluded. -/
structure LexAt (input : Str) (l : Lexer) : Prop where
  pos : LexAt0 input l
  names : NamesOk l

theorem LexAt.bnd {input l} (h : LexAt input l) {a b} (hr : l.rest = a ++ b) : Bnd input (l.pos + blen a) := by
  obtain ⟨pre, h1, h2⟩ := h.pos
  exact ⟨pre ++ a, b, by rw [h1, hr, List.append_assoc], by rw [blen_append, h2]⟩

theorem LexAt.error {input l e} (h : LexAt input l) (he : l.nextToken = .error e) : ErrGood input e := by
  obtain ⟨a, t, b, h1, h2, h3⟩ := nextTokenFuel_err he
  refine ⟨⟨?_, ?_⟩, fun hi => absurd hi (nextTokenFuel_kind he)⟩
  · rw [h2]; exact h.bnd (b := t ++ b) (by rw [h1, List.append_assoc])
  · rw [h3, Nat.add_assoc, ← blen_append]; exact h.bnd h1

theorem LexAt.next {input l out l'} (h : LexAt input l) (he : l.nextToken = .ok (out, l')) :
    LexAt input l' ∧ SpanOk input (outSpan out) := by
  obtain ⟨gap, text, after, hk⟩ := nextToken_ok he
  obtain ⟨pre, h1, h2⟩ := id h.pos
  refine ⟨⟨⟨pre ++ (gap ++ text ++ after), ?_, ?_⟩, h.names.next he⟩, ?_⟩
  · rw [h1, hk.rest]; simp
  · rw [hk.pos, h2]; simp only [blen_append]; omega
  · rw [hk.span]
    refine ⟨h.bnd (b := text ++ after ++ l'.rest) (by rw [hk.rest]; simp), ?_⟩
    show Bnd input (l.pos + blen gap + blen text)
    rw [Nat.add_assoc, ← blen_append]
    exact h.bnd (b := after ++ l'.rest) (by rw [hk.rest]; simp)

/-! ### Tokens -/

/-- A reference to a stored body, with at most nine parameters -/
def IsRef (t : Token) : Prop := ∃ src n cl a b, n ≤ 9 ∧ t = .customCmdRef src n cl a b

/-- The token is not a reference, or it is one which has been looked up. -/
def TokHeld (h : List Token) (t : Token) : Prop := plain t = true ∨ (IsRef t ∧ t ∈ h)

/-- A token as the parser gets it -/
structure TokOk (input : Str) (h : List Token) (t : TokSpan) : Prop where
  held : TokHeld h t.tok
  span : SpanOk input t.span

/-- A token in the queue -/
structure QTokOk (input : Str) (h : List Token) (t : QueuedTok) : Prop where
  held : TokHeld h t.tok
  span : SpanOk input t.span
  named : ∀ name, t.name = some name → nameOk name = true ∧ t.tok.isEoi = false ∧ t.tok.isWs = false

/-- `h'` contains what is in `h`. -/
abbrev Sub (h h' : List Token) : Prop := ∀ t ∈ h, t ∈ h'

theorem TokHeld.mono {h h' t} (hs : Sub h h') (ht : TokHeld h t) : TokHeld h' t :=
  ht.imp id fun ⟨h1, h2⟩ => ⟨h1, hs _ h2⟩

theorem TokOk.mono {input h h' t} (hs : Sub h h') (ht : TokOk input h t) : TokOk input h' t :=
  ⟨ht.held.mono hs, ht.span⟩

theorem QTokOk.mono {input h h' t} (hs : Sub h h') (ht : QTokOk input h t) : QTokOk input h' t :=
  ⟨ht.held.mono hs, ht.span, ht.named⟩

theorem QTokOk.ts {input h t} (ht : QTokOk input h t) : TokOk input h t.ts := ⟨ht.held, ht.span⟩

theorem QTokOk.unwrap {input h t} (ht : QTokOk input h t) : QTokOk input h t.unwrapMath := by
  obtain ⟨tok, span, name⟩ := t
  obtain ⟨h1, h2, h3⟩ := ht
  unfold QueuedTok.unwrapMath Token.unwrapMath
  simp only at h1 h2 h3 ⊢
  split
  · rename_i t c
    rcases h1 with h1 | ⟨⟨_, _, _, _, _, -, h1⟩, -⟩
    · simp only [plain, Bool.and_eq_true, Bool.not_eq_true'] at h1
      exact ⟨Or.inl h1.1.1, h2, fun n hn => ⟨(h3 n hn).1, h1.1.2, h1.2.1.1.1⟩⟩
    · cases h1
  · exact ⟨h1, h2, h3⟩

theorem QTokOk.eoi (input h) : QTokOk input h eoiTok := ⟨Or.inl rfl, spanOk_zero _, nofun⟩

/-- A recorded token is not a reference, refers to some body, or is a parameter. Names are not excluded. -/
def RecOk : RecordedToken → Prop
  | .token t => plain t = true ∨ IsRef t ∨ argOk t = true
  | .commandName name => nameOk name = true

/-- What the definitions in the stores are like -/
structure StoresPlain (s : CmdStores) : Prop where
  bodies : ∀ src, ∀ r ∈ Spec.bodies s src, RecOk r
  arity : ∀ src name d, (s.store src).map.get name = some d → d.numArgs ≤ 9

theorem StoresPlain.ref {cfg : ParserConfig} {stores : CmdStores} {name src n cl a b} (hs : StoresPlain stores)
    (h : stores.resolveCommand cfg.builtin name = some (.customCmdRef src n cl a b)) :
    IsRef (.customCmdRef src n cl a b) := by
  refine ⟨_, _, _, _, _, ?_, rfl⟩
  have hget : ∀ src', (stores.store src').get name src' = some (.customCmdRef src n cl a b) → n ≤ 9 := by
    intro src' hg
    unfold CustomCmds.get at hg
    split at hg
    · cases hg
    · rename_i d hd
      cases hg
      exact hs.arity _ name _ hd
  unfold CmdStores.resolveCommand at h
  split at h
  · rename_i tok hx
    cases h
    rw [Option.or_eq_some_iff, Option.or_eq_some_iff] at hx
    rcases hx with (hx | ⟨-, hx⟩) | ⟨-, hx⟩
    · exact hget .loc hx
    · exact hget .document hx
    · exact hget .config hx
  · have := ((@builtinOkB_iff .nothing _).1 (@builtin_builtinOk .nothing _ _ _ rfl h)).1
    simp [plain] at this

/-! ### The queue -/

/-- The invariant of the queue -/
structure GQ (input : Str) (q : TokenQueue) (h : List Token) : Prop where
  inv : QInv q
  lex : LexAt input q.lexer
  toks : ∀ t ∈ q.queue, QTokOk input h t
  stores : StoresPlain q.stores
  held : DefInv ⟨q.stores, h⟩

/-- The definition may be made by the snippet: it is not global, or global definitions are possible. -/
def _root_.Verif.Spec.DefOp.allowed (cfg : ParserConfig) : DefOp → Prop
  | .define _ _ _ _ _ isGlobal => isGlobal = true → cfg.globalGroup = true ∨ L.noGlobal = false
  | _ => True

/-- Looking up a name or making a definition -/
def _root_.Verif.Spec.DefOp.quiet (cfg : ParserConfig) : DefOp → Prop
  | .lookup _ => True
  | .define _ _ _ _ _ isGlobal => isGlobal = true → cfg.globalGroup = true ∨ L.noGlobal = false
  | _ => False

/-- What a step does: some operations on definitions, without increasing what is left to read. -/
structure RQ (cfg : ParserConfig) (q : TokenQueue) (h : List Token) (q' : TokenQueue) (h' : List Token) : Prop where
  defs : ∃ ops, (∀ op ∈ ops, DefOp.quiet cfg op) ∧
    DefState.run cfg.builtin ⟨q.stores, h⟩ ops = some ⟨q'.stores, h'⟩
  sub : Sub h h'
  mu : mu weight 4 q' ≤ mu weight 4 q
  cnt : cnt q' ≤ cnt q
  count : q'.equationCount = q.equationCount
  labels : q'.labelMap = q.labelMap
  plain : StoresPlain q.stores → StoresPlain q'.stores

omit L in
theorem run_append' {builtin s ops ops' s1 s2} (h : DefState.run builtin s ops = some s1)
    (h' : DefState.run builtin s1 ops' = some s2) : DefState.run builtin s (ops ++ ops') = some s2 := by
  induction ops generalizing s with
  | nil => cases h; exact h'
  | cons op ops ih =>
    simp only [DefState.run, List.cons_append] at h ⊢
    cases ha : DefState.apply builtin s op with
    | none => rw [ha] at h; cases h
    | some s3 => rw [ha] at h; exact ih h

omit L in
theorem builtin_notRef (cfg : ParserConfig) : BuiltinOk cfg.builtin := by
  intro n t h
  have := ((@builtinOkB_iff .nothing _).1 (@builtin_builtinOk .nothing _ _ _ rfl h)).1
  unfold NotRef
  split
  · rename_i h1
    cases h1
    simp [plain] at this
  · trivial

/-- The invariant of the definitions is preserved. -/
theorem RQ.inv {cfg q h q' h'} (a : RQ cfg q h q' h') (hi : DefInv ⟨q.stores, h⟩) : DefInv ⟨q'.stores, h'⟩ := by
  obtain ⟨ops, -, hr⟩ := a.defs
  exact run_inv (builtin_notRef cfg) hi hr

theorem RQ.refl (cfg q h) : RQ cfg q h q h :=
  ⟨⟨[], by simp, rfl⟩, fun _ h => h, Nat.le_refl _, Nat.le_refl _, rfl, rfl, id⟩

theorem RQ.trans {cfg q h q1 h1 q2 h2} (a : RQ cfg q h q1 h1) (b : RQ cfg q1 h1 q2 h2) : RQ cfg q h q2 h2 := by
  obtain ⟨ops, hw, hr⟩ := a.defs
  obtain ⟨ops', hw', hr'⟩ := b.defs
  refine ⟨⟨ops ++ ops', ?_, run_append' hr hr'⟩, fun t ht => b.sub _ (a.sub _ ht), Nat.le_trans b.mu a.mu,
    Nat.le_trans b.cnt a.cnt, b.count.trans a.count, b.labels.trans a.labels,
    fun hp => b.plain (a.plain hp)⟩
  intro op hop
  rcases List.mem_append.1 hop with hop | hop
  · exact hw op hop
  · exact hw' op hop

/-- The logic for the queue -/
def LQ (cfg : ParserConfig) (input : Str) : Logic TokenQueue where
  cfg := cfg
  inv := GQ input
  rel := RQ cfg
  good := ErrGood input
  refl := RQ.refl cfg
  trans := RQ.trans

/-- Tokens which are read from the source: names are looked up. -/
theorem Loaded.held {cfg stores input l ts l'} (hl : Loaded cfg stores l ts l') (hat : LexAt input l)
    (hst : StoresPlain stores) (h : List Token) :
    LexAt input l' ∧ ∃ h' ops, (∀ op ∈ ops, DefOp.quiet cfg op) ∧
      DefState.run cfg.builtin ⟨stores, h⟩ ops = some ⟨stores, h'⟩ ∧ Sub h h' ∧ ∀ t ∈ ts, QTokOk input h' t := by
  induction hl generalizing h with
  | nil => exact ⟨hat, h, [], by simp, rfl, fun _ h => h, by simp⟩
  | @cons l out l1 ts l2 h1 _ ih =>
    obtain ⟨hat1, hspan⟩ := hat.next h1
    have ho := nextToken_outOk h1
    cases out with
    | token t =>
      obtain ⟨hat2, h', ops, hw, hr, hs, ht⟩ := ih hat1 h
      refine ⟨hat2, h', ops, hw, hr, hs, ?_⟩
      intro x hx
      rcases List.mem_cons.1 hx with rfl | hx
      · simp only [OutOk, lexOk, Bool.and_eq_true] at ho
        exact ⟨Or.inl ho.1, hspan, nofun⟩
      · exact ht x hx
    | commandName name span =>
      have hnm := hat.names.first h1
      cases hn : stores.resolveCommand cfg.builtin name with
      | none =>
        obtain ⟨hat2, h', ops, hw, hr, hs, ht⟩ := ih hat1 h
        refine ⟨hat2, h', ops, hw, hr, hs, ?_⟩
        intro x hx
        rcases List.mem_cons.1 hx with rfl | hx
        · simp only [resolveLexed, hn, Option.getD_none]
          exact ⟨Or.inl hnm, hspan, fun n hn => ⟨Option.some.inj hn ▸ hnm, rfl, rfl⟩⟩
        · exact ht x hx
      | some tok =>
        obtain ⟨hat2, h', ops, hw, hr, hs, ht⟩ := ih hat1 (tok :: h)
        refine ⟨hat2, h', .lookup name :: ops, ?_, ?_, fun t ht => hs _ (List.mem_cons_of_mem _ ht), ?_⟩
        · intro op hop
          rcases List.mem_cons.1 hop with rfl | hop
          · trivial
          · exact hw op hop
        · simp only [DefState.run, DefState.apply, hn, Option.map_some, Option.bind_some]
          exact hr
        · intro x hx
          rcases List.mem_cons.1 hx with rfl | hx
          · simp only [resolveLexed, hn, Option.getD_some]
            rcases resolve_cases hnm hn with ⟨a, b, c, d, e, rfl⟩ | hb
            · exact ⟨Or.inr ⟨hst.ref hn, hs _ (by simp)⟩, hspan, fun n hn => ⟨Option.some.inj hn ▸ hnm, rfl, rfl⟩⟩
            · have := builtinOkB_iff.1 hb
              exact ⟨Or.inl this.1, hspan, fun n hn => ⟨Option.some.inj hn ▸ hnm, this.2.2⟩⟩
          · exact ht x hx

/-- Filling up the queue is a step. -/
theorem Ext.step {cfg input q q' h} (he : Ext cfg q q') (hlex : LexAt input q.lexer)
    (hst : StoresPlain q.stores) (htoks : ∀ t ∈ q.queue, QTokOk input h t) :
    ∃ h', RQ cfg q h q' h' ∧ LexAt input q'.lexer ∧ (∀ t ∈ q'.queue, QTokOk input h' t) ∧ q'.stores = q.stores := by
  obtain ⟨ts, h1, h2, h3, h4, h5, h6⟩ := id he
  obtain ⟨hat, h', ops, hw, hr, hs, ht⟩ := h1.held hlex hst h
  refine ⟨h', ⟨⟨ops, hw, by rw [h3]; exact hr⟩, hs, he.mu (weight_weights cfg), he.cnt, h4, h5, by rw [h3]; exact id⟩, hat, ?_, h3⟩
  intro t htm
  rw [h2] at htm
  rcases List.mem_append.1 htm with htm | htm
  · exact (htoks t htm).mono hs
  · exact ht t htm

/-- Tokens are taken from the front of the queue, and then it is filled up. -/
theorem ext_dropStep {cfg input q q' h pre post} (hg : GQ input q h) (hs : q.queue = pre ++ post)
    (he : Ext cfg { q with queue := post } q') :
    ∃ h', RQ cfg q h q' h' ∧ LexAt input q'.lexer ∧ (∀ t ∈ q'.queue, QTokOk input h' t) ∧ q'.stores = q.stores ∧
      wsum weight pre + mu weight 4 q' ≤ mu weight 4 q ∧ wsum one pre + cnt q' ≤ cnt q := by
  obtain ⟨h', h1, h2, h3, h4⟩ := he.step hg.lex (h := h) hg.stores
    (fun t ht => hg.toks t (by rw [hs]; exact List.mem_append_right _ ht))
  have hm : ∀ w W, wsum w pre + mu w W { q with queue := post } = mu w W q := by
    intro w W; unfold mu; simp only [hs, wsum_append]; omega
  have hm1 := hm weight 4
  have hm2 := hm one 1
  have h5 := h1.mu
  have h6 := h1.cnt
  unfold cnt at h6 ⊢
  refine ⟨h', ⟨h1.defs, h1.sub, by omega, by unfold cnt; omega, h1.count, h1.labels, h1.plain⟩, h2, h3, h4, by omega, by omega⟩

/-- The token outside of text mode -/
def _root_.Verif.Model.TokSpan.unwrapMath (t : TokSpan) : TokSpan := ⟨t.tok.unwrapMath, t.span⟩

/-- What is known about a token which has been read -/
structure ReadQ (input : Str) (q : TokenQueue) (t : QueuedTok) (q' : TokenQueue) (h' : List Token) : Prop where
  ok : QTokOk input h' t
  mu : weight t.tok + mu weight 4 q' ≤ mu weight 4 q
  cnt : one t.tok + cnt q' ≤ cnt q

/-- If unknown commands are errors, then this is not one. -/
def Known (cfg : ParserConfig) (t : Token) : Prop :=
  ∀ name, t = .unresolvedCommand name → cfg.ignoreUnknownCommands = true

/-- A token as it is given to `parse_token` -/
structure Ready (cfg : ParserConfig) (t : Token) : Prop where
  known : Known cfg t
  notWs : t.isWs = false
  oneMode : twoModes t = false

/-- What is known about a token which has been read -/
structure Read (cfg : ParserConfig) (input : Str) (q : TokenQueue) (t : TokSpan) (q' : TokenQueue) (h' : List Token) :
    Prop where
  ok : TokOk input h' t
  mu : weight t.tok + mu weight 4 q' ≤ mu weight 4 q
  cnt : one t.tok + cnt q' ≤ cnt q
  known : Known cfg t.tok

omit L in
theorem one_unwrap {t : Token} : one t.unwrapMath ≤ one t := by
  unfold one
  cases h : t.isEoi with
  | true => rw [unwrap_eoi h]; simp
  | false => simp only [Bool.false_eq_true, if_false]; split <;> omega

variable {cfg : ParserConfig} {input : Str} {q : TokenQueue} {h : List Token}

theorem wp_nextAllowing (hg : GQ input q h) :
    (LQ cfg input).Wp nextAllowingUnresolved q h fun t q' h' => ReadQ input q t q' h' ∧ t.ts = q.peek.unwrapMath := by
  obtain ⟨pre, t, post, hs, hl, hw, hpre⟩ := hg.inv.split
  have hs' : q.queue = (pre ++ [t]) ++ post := by rw [hs]; simp
  have hmem : t ∈ q.queue := by rw [hs]; simp
  have hw1 := @weight_unwrap t.tok
  have hw2 := @one_unwrap t.tok
  rcases nextAllowing_spec cfg q hg.inv hs hl with ⟨q', h1, h2, h3⟩ | ⟨e, q', h1, h2⟩
  · obtain ⟨h', h4, h5, h6, h7, h8, h9⟩ := ext_dropStep hg hs' h2
    simp only [wsum_append, wsum_cons, wsum_nil] at h8 h9
    refine .ok h1 ⟨h', h4, ⟨h3, h5, h6, by rw [h7]; exact hg.stores, h4.inv hg.held⟩,
      ⟨((hg.toks t hmem).mono h4.sub).unwrap, ?_, ?_⟩, ?_⟩
    · show weight t.tok.unwrapMath + _ ≤ _; omega
    · show one t.tok.unwrapMath + _ ≤ _; omega
    · rw [peek_eq hs hl]; rfl
  · obtain ⟨h', h4, h5, h6, h7, h8, h9⟩ := ext_dropStep hg hs' h2.1
    exact .err h1 ⟨h', h4, h5.error h2.2⟩

theorem wp_nextAnyAllowing (hg : GQ input q h) :
    (LQ cfg input).Wp nextAnyAllowingUnknown q h fun t q' h' => ReadQ input q t q' h' ∧ t = q.peekAnyKeepingName := by
  obtain ⟨t, post, hs⟩ : ∃ t post, q.queue = t :: post := by
    obtain ⟨pre, t, post, hs, -⟩ := hg.inv.split
    cases pre with
    | nil => exact ⟨_, _, hs⟩
    | cons x xs => exact ⟨_, _, hs⟩
  have hs' : q.queue = [t] ++ post := hs
  have hmem : t ∈ q.queue := by rw [hs]; simp
  rcases nextAnyAllowing_spec cfg q hg.inv hs with ⟨q', h1, h2, h3⟩ | ⟨e, q', h1, h2⟩
  · obtain ⟨h', h4, h5, h6, h7, h8, h9⟩ := ext_dropStep hg hs' h2
    simp only [wsum_cons, wsum_nil] at h8 h9
    exact .ok h1 ⟨h', h4, ⟨h3, h5, h6, by rw [h7]; exact hg.stores, h4.inv hg.held⟩,
      ⟨(hg.toks t hmem).mono h4.sub, by omega, by omega⟩, by unfold peekAnyKeepingName; rw [hs]; rfl⟩
  · obtain ⟨h', h4, h5, h6, h7, h8, h9⟩ := ext_dropStep hg hs' h2.1
    exact .err h1 ⟨h', h4, h5.error h2.2⟩

theorem wp_reject {t : QueuedTok} (hg : GQ input q h) (ht : QTokOk input h t) :
    (LQ cfg input).Wp (rejectUnknownCommand t) q h fun _ q' h' => q' = q ∧ h' = h ∧ Known cfg t.tok := by
  rcases reject_spec cfg q t with ⟨h4, h5⟩ | ⟨e, h4, h5⟩
  · refine .ok h4 ⟨h, RQ.refl .., hg, rfl, rfl, ?_⟩
    intro name hn
    cases hc : cfg.ignoreUnknownCommands with
    | true => rfl
    | false => exact absurd ⟨name, hn, hc, rfl⟩ (h5 _)
  · obtain ⟨name, hn, hc, rfl⟩ := h5
    exact .err h4 ⟨h, RQ.refl .., ht.span.err _⟩

open Logic

theorem wp_nextKeepingName (hg : GQ input q h) :
    (LQ cfg input).Wp nextKeepingName q h fun t q' h' => ReadQ input q t q' h' ∧ Known cfg t.tok ∧ t.ts = q.peek.unwrapMath := by
  refine Wp.bind (wp_nextAllowing hg) ?_
  rintro t q1 h1 hr hg1 ⟨hp, he⟩
  refine Wp.bind (wp_reject hg1 hp.ok) ?_
  rintro _ q2 h2 hr2 hg2 ⟨rfl, rfl, hk⟩
  exact Wp.pure hg2 ⟨hp, hk, he⟩

theorem wp_nextAnyKeepingName (hg : GQ input q h) :
    (LQ cfg input).Wp nextAnyKeepingName q h fun t q' h' => ReadQ input q t q' h' ∧ Known cfg t.tok ∧ t = q.peekAnyKeepingName := by
  refine Wp.bind (wp_nextAnyAllowing hg) ?_
  rintro t q1 h1 hr hg1 ⟨hp, he⟩
  refine Wp.bind (wp_reject hg1 hp.ok) ?_
  rintro _ q2 h2 hr2 hg2 ⟨rfl, rfl, hk⟩
  exact Wp.pure hg2 ⟨hp, hk, he⟩

theorem wp_next (hg : GQ input q h) :
    (LQ cfg input).Wp next q h fun t q' h' => Read cfg input q t q' h' ∧ t = q.peek.unwrapMath := by
  refine Wp.bind (wp_nextKeepingName hg) ?_
  rintro t q1 h1 hr hg1 ⟨hp, hk, he⟩
  exact Wp.pure hg1 ⟨⟨hp.ok.ts, hp.mu, hp.cnt, hk⟩, he⟩

theorem wp_nextAny (hg : GQ input q h) :
    (LQ cfg input).Wp nextAny q h fun t q' h' => Read cfg input q t q' h' ∧ t = q.peekAny := by
  refine Wp.bind (wp_nextAnyKeepingName hg) ?_
  rintro t q1 h1 hr hg1 ⟨hp, hk, he⟩
  exact Wp.pure hg1 ⟨⟨hp.ok.ts, hp.mu, hp.cnt, hk⟩, by rw [he]; rfl⟩

theorem GQ.peekOk (hg : GQ input q h) : TokOk input h q.peek := by
  obtain ⟨pre, t, post, hs, hl, -⟩ := hg.inv.split
  rw [peek_eq hs hl]
  exact (hg.toks t (by rw [hs]; simp)).ts

/-- What has been looked at is not whitespace, and is a token for mathematics. -/
theorem GQ.ready (hg : GQ input q h) {t : TokSpan} (ht : t = q.peek.unwrapMath) (hk : Known cfg t.tok) :
    Ready cfg t.tok := by
  obtain ⟨pre, x, post, hs, hl, hw, -⟩ := hg.inv.split
  have hx := (hg.toks x (by rw [hs]; simp)).held
  subst ht
  suffices hh : q.peek.unwrapMath.tok.isWs = false ∧ twoModes q.peek.unwrapMath.tok = false from ⟨hk, hh.1, hh.2⟩
  rw [peek_eq hs hl]
  show x.tok.unwrapMath.isWs = false ∧ twoModes x.tok.unwrapMath = false
  unfold Token.unwrapMath
  split
  · rename_i t c heq
    rw [heq] at hx
    rcases hx with h1 | ⟨⟨_, _, _, _, _, -, h1⟩, -⟩
    · simp only [plain, Bool.and_eq_true, Bool.not_eq_true'] at h1
      exact ⟨h1.2.1.1.1, h1.2.1.1.2⟩
    · cases h1
  · rename_i hne
    refine ⟨hw, ?_⟩
    cases hk : x.tok <;> first | rfl | exact absurd hk (hne _ _)

theorem GQ.peekAnyKeepingOk (hg : GQ input q h) : QTokOk input h q.peekAnyKeepingName := by
  unfold peekAnyKeepingName
  cases hq : q.queue with
  | nil => exact QTokOk.eoi ..
  | cons t ts => exact hg.toks t (by rw [hq]; simp)

theorem GQ.peekAnyOk (hg : GQ input q h) : TokOk input h q.peekAny := hg.peekAnyKeepingOk.ts

/-- Looking further ahead -/
theorem wp_findOrLoad {T : Type} {pred : Nat → Token → Option T} (hp : Search pred) (hg : GQ input q h) :
    (LQ cfg input).Wp (findOrLoadAfterNext pred) q h fun _ q' _ => q'.peek = q.peek := by
  rcases findOrLoadAfterNext_spec hp cfg q hg.inv with ⟨r, q', init, t, post, h1, h2, h3, h4, h5, -⟩ | ⟨e, q', h1, h2⟩
  · obtain ⟨h', h6, h7, h8, h9⟩ := h2.step hg.lex hg.stores hg.toks
    refine .ok h1 ⟨h', h6, ⟨h3, h7, h8, by rw [h9]; exact hg.stores, h6.inv hg.held⟩, ?_⟩
    obtain ⟨pre, t, post, hs, hl, -⟩ := hg.inv.split
    obtain ⟨ts, -, h10, -⟩ := h2
    rw [peek_eq hs hl, peek_eq (pre := pre) (t := t) (post := post ++ ts) (by rw [h10, hs]; simp) (by rw [hl, h4])]
  · obtain ⟨h', h6, h7, h8, h9⟩ := h2.1.step hg.lex hg.stores hg.toks
    exact .err h1 ⟨h', h6, h7.error h2.2⟩

theorem wp_peekSecond (hg : GQ input q h) :
    (LQ cfg input).Wp peekSecond q h fun t q' h' => TokOk input h' t ∧ q'.peek = q.peek := by
  refine Wp.bind (wp_findOrLoad search_nonWs hg) fun i q1 h1 hr hg1 hp => ?_
  refine Wp.get_bind (Wp.pure hg1 ⟨?_, hp⟩)
  cases hi : i.bind fun i => q1.queue[i]? with
  | none => exact (QTokOk.eoi ..).ts
  | some t =>
    rw [Option.bind_eq_some_iff] at hi
    obtain ⟨j, -, hj⟩ := hi
    exact (hg1.toks t (List.mem_of_getElem? hj)).ts

theorem wp_peekClassToken (hg : GQ input q h) : (LQ cfg input).Wp peekClassToken q h fun _ _ _ => True := by
  refine Wp.get_bind ?_
  split
  · exact Wp.pure hg trivial
  · refine Wp.bind (wp_findOrLoad search_class hg) fun i q1 h1 hr hg1 hp => ?_
    exact Wp.get_bind (Wp.pure hg1 trivial)

end Verif

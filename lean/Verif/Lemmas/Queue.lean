import Verif.Spec.Stream
import Verif.Lemmas.Lexer
/-! Lemmas about the token queue. -/
namespace Verif
open Model Spec Lexer' TokenQueue

/-! ### Reading tokens from the source -/

/-- From `l` on, the tokeniser finds the tokens `ts` (looked up in the stores) and is then at `l'`. -/
inductive Loaded (cfg : ParserConfig) (stores : CmdStores) : Lexer → List QueuedTok → Lexer → Prop
  | nil (l) : Loaded cfg stores l [] l
  | cons {l out l1 ts l2} : l.nextToken = .ok (out, l1) → Loaded cfg stores l1 ts l2 →
      Loaded cfg stores l (resolveLexed cfg stores out :: ts) l2

theorem Loaded.append {cfg stores l ts l1 ts' l2} (h : Loaded cfg stores l ts l1)
    (h' : Loaded cfg stores l1 ts' l2) : Loaded cfg stores l (ts ++ ts') l2 := by
  induction h with
  | nil => exact h'
  | cons h1 _ ih => exact .cons h1 (ih h')

theorem Loaded.nth {cfg stores l ts l'} (h : Loaded cfg stores l ts l') (i : Nat) :
    (nthLexed i l).map (resolveLexed cfg stores) =
      match ts[i]? with
      | some t => .ok t
      | none => (nthLexed (i - ts.length) l').map (resolveLexed cfg stores) := by
  induction h generalizing i with
  | nil => simp
  | cons h1 _ ih =>
    cases i with
    | zero => simp [nthLexed, h1, Except.map]
    | succ i => simp [nthLexed, h1, ih]

/-- The queue has been filled up with some more tokens of the source, and nothing else. -/
def Ext (cfg : ParserConfig) (q q' : TokenQueue) : Prop :=
  ∃ ts, Loaded cfg q.stores q.lexer ts q'.lexer ∧ q'.queue = q.queue ++ ts ∧ q'.stores = q.stores ∧
    q'.equationCount = q.equationCount ∧ q'.labelMap = q.labelMap ∧ q'.lexerIsEoi = q.lexerIsEoi

theorem Ext.refl (cfg q) : Ext cfg q q := ⟨[], .nil _, by simp, rfl, rfl, rfl, rfl⟩

theorem Ext.trans {cfg q q1 q2} (h : Ext cfg q q1) (h' : Ext cfg q1 q2) : Ext cfg q q2 := by
  obtain ⟨ts, h1, h2, h3, h4, h5, h6⟩ := h
  obtain ⟨ts', h1', h2', h3', h4', h5', h6'⟩ := h'
  rw [h3] at h1'
  exact ⟨ts ++ ts', h1.append h1', by rw [h2', h2, List.append_assoc], by rw [h3', h3], by rw [h4', h4],
    by rw [h5', h5], by rw [h6', h6]⟩

theorem Ext.upcoming {cfg q q'} (h : Ext cfg q q') : upcoming cfg q' = upcoming cfg q := by
  obtain ⟨ts, h1, h2, h3, -⟩ := h
  funext i
  unfold Spec.upcoming
  rw [h2, h3]
  by_cases hi : i < q.queue.length
  · rw [List.getElem?_append_left hi, List.getElem?_eq_getElem hi]
  · have hn : q.queue[i]? = none := List.getElem?_eq_none (by omega)
    rw [List.getElem?_append_right (by omega), hn, h1.nth (i - q.queue.length)]
    simp only [List.length_append, Nat.sub_add_eq]
    rfl

/-- The predicates which are used to look for a token -/
structure Search {T : Type} (pred : Nat → Token → Option T) : Prop where
  eoi : ∀ i, (pred i .eoi).isSome

theorem search_nonWs : Search isNotWhitespace := ⟨fun _ => rfl⟩
theorem search_class : Search hasClass := ⟨fun _ => rfl⟩

theorem resolveLexed_eoi {cfg stores out} (h : isEoi out = true) :
    (resolveLexed cfg stores out).tok = .eoi := by
  unfold Spec.isEoi at h
  split at h
  · rfl
  · cases h

theorem rest_lt {l : Lexer} {out l'} (h : l.nextToken = .ok (out, l')) (he : isEoi out = false) :
    l'.rest.length < l.rest.length := by
  obtain ⟨gap, text, after, hk⟩ := nextToken_ok h
  have ht' : 0 < text.length := List.length_pos_iff.2 (hk.progress he)
  have := congrArg List.length hk.rest
  simp only [List.length_append] at this
  omega

/-- A lexer error which comes after some tokens -/
def LexErr (cfg : ParserConfig) (stores : CmdStores) (l : Lexer) (e : LatexError) : Prop :=
  ∃ ts l', Loaded cfg stores l ts l' ∧ l'.nextToken = .error e

theorem loadLoop_spec {T : Type} {pred : Nat → Token → Option T} (hp : Search pred) (cfg : ParserConfig)
    (fuel idx : Nat) (q : TokenQueue) (hf : q.lexer.rest.length < fuel) :
    (∃ r init last l', loadLoop pred fuel idx cfg q =
        .ok (some r) { q with lexer := l', queue := q.queue ++ (init ++ [last]) } ∧
      Loaded cfg q.stores q.lexer (init ++ [last]) l' ∧ pred (idx + init.length) last.tok = some r ∧
      ∀ (j : Nat) (t : QueuedTok), init[j]? = some t → pred (idx + j) t.tok = none) ∨
    (∃ e ts l', loadLoop pred fuel idx cfg q = .err e { q with lexer := l', queue := q.queue ++ ts } ∧
      Loaded cfg q.stores q.lexer ts l' ∧ l'.nextToken = .error e) := by
  induction fuel generalizing idx q with
  | zero => omega
  | succ fuel ih =>
    unfold loadLoop
    cases h : q.lexer.nextToken with
    | error e => exact Or.inr ⟨e, [], q.lexer, by simp, .nil _, h⟩
    | ok r =>
      obtain ⟨out, l'⟩ := r
      simp only
      cases hpr : pred idx (resolveLexed cfg q.stores out).tok with
      | some r =>
        exact Or.inl ⟨r, [], resolveLexed cfg q.stores out, l', rfl, .cons h (.nil _), hpr, by simp⟩
      | none =>
        simp only
        have he : isEoi out = false := by
          cases he : isEoi out with
          | false => rfl
          | true =>
            rw [resolveLexed_eoi he] at hpr
            have := hp.eoi idx
            rw [hpr] at this; cases this
        have hne : (resolveLexed cfg q.stores out).tok.isEoi = false := by
          cases hh : (resolveLexed cfg q.stores out).tok with
          | eoi =>
            rw [hh] at hpr
            have := hp.eoi idx
            rw [hpr] at this; cases this
          | _ => rfl
        rw [if_neg (by rw [hne]; simp)]
        have hlt := rest_lt h he
        rcases ih (idx + 1) { q with lexer := l', queue := q.queue ++ [resolveLexed cfg q.stores out] }
          (by simp only; omega) with ⟨r, init, last, l2, h1, h2, h3, h4⟩ | ⟨e, ts, l2, h1, h2, h3⟩
        · refine Or.inl ⟨r, resolveLexed cfg q.stores out :: init, last, l2, ?_, ?_, ?_, ?_⟩
          · rw [h1]; simp
          · exact .cons h h2
          · rw [← h3]; congr 1; simp; omega
          · intro j t hj
            cases j with
            | zero => simp at hj; subst hj; exact hpr
            | succ j => rw [← h4 j t (by simpa using hj)]; congr 1; omega
        · exact Or.inr ⟨e, resolveLexed cfg q.stores out :: ts, l2, by rw [h1]; simp, .cons h h2, h3⟩

theorem findNonWs_some {l : List QueuedTok} {p : Nat} (h : findNonWs l = some p) :
    ∃ pre t post, l = pre ++ t :: post ∧ pre.length = p ∧ t.tok.isWs = false ∧ ∀ x ∈ pre, x.tok.isWs = true := by
  induction l generalizing p with
  | nil => simp [findNonWs] at h
  | cons t ts ih =>
    unfold findNonWs at h
    split at h
    · rename_i hw
      cases hf : findNonWs ts with
      | none => rw [hf] at h; cases h
      | some p' =>
        rw [hf] at h
        simp only [Option.map_some, Option.some.injEq] at h
        subst h
        obtain ⟨pre, t', post, h1, h2, h3, h4⟩ := ih hf
        refine ⟨t :: pre, t', post, by rw [h1]; rfl, by simp [h2], h3, ?_⟩
        intro x hx
        rcases List.mem_cons.1 hx with rfl | hx
        · exact hw
        · exact h4 x hx
    · rename_i hw
      cases h
      exact ⟨[], t, ts, rfl, rfl, by simpa using hw, by simp⟩

theorem findNonWs_none {l : List QueuedTok} (h : findNonWs l = none) : ∀ t ∈ l, t.tok.isWs = true := by
  induction l with
  | nil => simp
  | cons t ts ih =>
    unfold findNonWs at h
    split at h
    · rename_i hw
      simp only [Option.map_eq_none_iff] at h
      intro x hx
      rcases List.mem_cons.1 hx with rfl | hx
      · exact hw
      · exact ih h x hx
    · cases h

theorem findNonWs_eq {pre post : List QueuedTok} {t : QueuedTok} (ht : t.tok.isWs = false)
    (hpre : ∀ x ∈ pre, x.tok.isWs = true) : findNonWs (pre ++ t :: post) = some pre.length := by
  induction pre with
  | nil => simp [findNonWs, ht]
  | cons x xs ih =>
    simp only [List.cons_append, findNonWs]
    rw [if_pos (hpre x (by simp)), ih (fun y hy => hpre y (by simp [hy]))]
    rfl

theorem findNonWs_append_some {l : List QueuedTok} {p : Nat} (h : findNonWs l = some p) (m : List QueuedTok) :
    findNonWs (l ++ m) = some p := by
  obtain ⟨pre, t, post, h1, h2, h3, h4⟩ := findNonWs_some h
  rw [h1, ← h2, List.append_assoc, List.cons_append]
  exact findNonWs_eq h3 h4

/-! ### The invariant -/

/-- The invariant of the queue: it holds a token which is not whitespace, and `nextNonWs` is the index
of the first one. -/
structure QInv (q : TokenQueue) : Prop where
  next : findNonWs q.queue = some q.nextNonWs
  more : q.lexerIsEoi = false

theorem QInv.split {q} (h : QInv q) : ∃ pre t post, q.queue = pre ++ t :: post ∧
    pre.length = q.nextNonWs ∧ t.tok.isWs = false ∧ ∀ x ∈ pre, x.tok.isWs = true :=
  findNonWs_some h.next

/-- What is known if the source cannot be read further -/
def ReadErr (cfg : ParserConfig) (q : TokenQueue) (e : LatexError) (q' : TokenQueue) : Prop :=
  Ext cfg q q' ∧ q'.lexer.nextToken = .error e

/-- Filling up the queue gives it the invariant. -/
theorem ensure_spec (cfg : ParserConfig) (q : TokenQueue) (hm : q.lexerIsEoi = false) :
    (∃ q', ensure cfg q = .ok () q' ∧ Ext cfg q q' ∧ QInv q') ∨
    (∃ e q', ensure cfg q = .err e q' ∧ ReadErr cfg q e q') := by
  unfold ensure
  simp only [bind, St.bind, St.get]
  cases hf : findNonWs q.queue with
  | some p =>
    refine Or.inl ⟨{ q with nextNonWs := p }, rfl, ⟨[], .nil _, by simp, rfl, rfl, rfl, rfl⟩, hf, hm⟩
  | none =>
    simp only [loadTokenSkipWhitespace, bind, St.bind, loadToken, hm, Bool.false_eq_true, if_false]
    rcases loadLoop_spec search_nonWs cfg (q.lexer.rest.length + 1) q.queue.length q (by omega) with
      ⟨r, init, last, l', h1, h2, h3, h4⟩ | ⟨e, ts, l', h1, h2, h3⟩
    · rw [h1]
      simp only [St.get, pure, St.pure, St.modify]
      refine Or.inl ⟨_, rfl, ⟨init ++ [last], h2, rfl, rfl, rfl, rfl, rfl⟩, ?_, hm⟩
      simp only [Option.getD_some]
      have hlast : last.tok.isWs = false ∧ r = q.queue.length + init.length := by
        unfold isNotWhitespace at h3
        split at h3
        · cases h3
        · rename_i h; cases h3; exact ⟨by simpa using h, rfl⟩
      have hinit : ∀ x ∈ q.queue ++ init, x.tok.isWs = true := by
        intro x hx
        rcases List.mem_append.1 hx with hx | hx
        · exact findNonWs_none hf x hx
        · obtain ⟨j, hj, rfl⟩ := List.getElem_of_mem hx
          have := h4 j init[j] (List.getElem?_eq_getElem hj)
          unfold isNotWhitespace at this
          split at this
          · assumption
          · cases this
      rw [← List.append_assoc, findNonWs_eq hlast.1 hinit, hlast.2, List.length_append]
    · rw [h1]
      exact Or.inr ⟨e, _, rfl, ⟨ts, h2, rfl, rfl, rfl, rfl, rfl⟩, h3⟩

theorem new_spec (cfg : ParserConfig) (input : Str) (g : GlobalState) :
    (∃ q', TokenQueue.new cfg input g = .ok () q' ∧ Ext cfg (TokenQueue.initial cfg input g) q' ∧ QInv q') ∨
    (∃ e q', TokenQueue.new cfg input g = .err e q' ∧ ReadErr cfg (TokenQueue.initial cfg input g) e q') :=
  ensure_spec cfg _ rfl

/-! ### Looking ahead -/

theorem peek_eq {q : TokenQueue} {pre t post} (hq : q.queue = pre ++ t :: post)
    (hl : pre.length = q.nextNonWs) : q.peek = t.ts := by
  unfold TokenQueue.peek
  rw [hq, ← hl]; simp

theorem findMapFrom_some {T : Type} {pred : Nat → Token → Option T} {idx : Nat} {l : List QueuedTok} {r}
    (h : findMapFrom pred idx l = some r) :
    ∃ init t post, l = init ++ t :: post ∧ pred (idx + init.length) t.tok = some r ∧
      ∀ (j : Nat) (x : QueuedTok), init[j]? = some x → pred (idx + j) x.tok = none := by
  induction l generalizing idx with
  | nil => simp [findMapFrom] at h
  | cons t ts ih =>
    unfold findMapFrom at h
    cases hp : pred idx t.tok with
    | some r' =>
      rw [hp] at h
      simp only [Option.some_or, Option.some.injEq] at h
      subst h
      exact ⟨[], t, ts, rfl, hp, by simp⟩
    | none =>
      rw [hp] at h
      obtain ⟨init, t', post, h1, h2, h3⟩ := ih h
      refine ⟨t :: init, t', post, by rw [h1]; rfl, by rw [← h2]; congr 1; simp; omega, ?_⟩
      intro j x hj
      cases j with
      | zero => simp at hj; subst hj; exact hp
      | succ j => rw [← h3 j x (by simpa using hj)]; congr 1; omega

theorem findMapFrom_none {T : Type} {pred : Nat → Token → Option T} {idx : Nat} {l : List QueuedTok}
    (h : findMapFrom pred idx l = none) (j : Nat) (x : QueuedTok) (hj : l[j]? = some x) :
    pred (idx + j) x.tok = none := by
  induction l generalizing idx j with
  | nil => simp at hj
  | cons t ts ih =>
    unfold findMapFrom at h
    cases hp : pred idx t.tok with
    | some r' => rw [hp] at h; cases h
    | none =>
      rw [hp] at h
      cases j with
      | zero => simp at hj; subst hj; exact hp
      | succ j => rw [← ih h j (by simpa using hj)]; congr 1; omega

/-- Looking for a token behind the next one: the first one for which the predicate holds. -/
theorem findOrLoadAfterNext_spec {T : Type} {pred : Nat → Token → Option T} (hp : Search pred)
    (cfg : ParserConfig) (q : TokenQueue) (hq : QInv q) :
    (∃ r q' init t post, findOrLoadAfterNext pred cfg q = .ok (some r) q' ∧ Ext cfg q q' ∧ QInv q' ∧
      q'.nextNonWs = q.nextNonWs ∧ q'.queue.drop (q.nextNonWs + 1) = init ++ t :: post ∧
      pred (q.nextNonWs + 1 + init.length) t.tok = some r ∧
      ∀ (j : Nat) (x : QueuedTok), init[j]? = some x → pred (q.nextNonWs + 1 + j) x.tok = none) ∨
    (∃ e q', findOrLoadAfterNext pred cfg q = .err e q' ∧ ReadErr cfg q e q') := by
  obtain ⟨pre, t0, post0, hs, hl, hw, hpre⟩ := hq.split
  unfold findOrLoadAfterNext
  rw [if_pos (by rw [hs, ← hl]; simp)]
  have hdrop : q.queue.drop (q.nextNonWs + 1) = post0 := by
    rw [hs, ← hl, List.drop_append]; simp
  have hlen : q.queue.length = q.nextNonWs + 1 + post0.length := by
    rw [hs, ← hl]; simp; omega
  cases hf : findMapFrom pred (q.nextNonWs + 1) (q.queue.drop (q.nextNonWs + 1)) with
  | some r =>
    obtain ⟨init, t, post, h1, h2, h3⟩ := findMapFrom_some hf
    exact Or.inl ⟨r, q, init, t, post, rfl, .refl _ _, hq, rfl, h1, h2, h3⟩
  | none =>
    simp only [loadToken, hq.more, Bool.false_eq_true, if_false]
    rcases loadLoop_spec hp cfg (q.lexer.rest.length + 1) q.queue.length q (by omega) with
      ⟨r, init, last, l', h1, h2, h3, h4⟩ | ⟨e, ts, l', h1, h2, h3⟩
    · refine Or.inl ⟨r, _, post0 ++ init, last, [], h1, ⟨_, h2, rfl, rfl, rfl, rfl, rfl⟩,
        ⟨findNonWs_append_some hq.next _, hq.more⟩, rfl, ?_, ?_, ?_⟩
      · simp only
        rw [List.drop_append_of_le_length (by omega), hdrop]; simp
      · rw [← h3, hlen]; congr 1; simp; omega
      · intro j x hj
        by_cases hjl : j < post0.length
        · rw [List.getElem?_append_left hjl] at hj
          rw [hdrop] at hf
          exact findMapFrom_none hf j x hj
        · rw [List.getElem?_append_right (by omega)] at hj
          rw [← h4 _ x hj, hlen]; congr 1; omega
    · exact Or.inr ⟨e, _, h1, ⟨ts, h2, rfl, rfl, rfl, rfl, rfl⟩, h3⟩

/-! ### Reading -/

theorem upcoming_head {cfg} {q : TokenQueue} {i t} (h : q.queue[i]? = some t) : upcoming cfg q i = .ok t := by
  unfold upcoming; rw [h]

theorem upcoming_drop {cfg} {q : TokenQueue} {pre post : List QueuedTok} (h : q.queue = pre ++ post) :
    upcoming cfg { q with queue := post } = (upcoming cfg q).drop pre.length := by
  funext i
  unfold Stream.drop upcoming
  simp only [h]
  rw [List.getElem?_append_right (by omega)]
  simp only [Nat.add_sub_cancel_left, List.length_append]
  rw [Nat.add_sub_add_left]

theorem upcoming_push {cfg} {q : TokenQueue} (ts : List QueuedTok) :
    upcoming cfg (q.queueInFront ts) = (upcoming cfg q).push ts := by
  funext i
  unfold Stream.push upcoming queueInFront updateNextNonWs
  simp only
  by_cases hi : i < ts.length
  · rw [List.getElem?_append_left hi, List.getElem?_eq_getElem hi]
  · have hn : ts[i]? = none := List.getElem?_eq_none (by omega)
    rw [List.getElem?_append_right (by omega), hn]
    simp only [List.length_append, Nat.sub_add_eq]

theorem firstAt_queue {cfg} {q : TokenQueue} {pre t post} (hq : q.queue = pre ++ t :: post)
    (ht : t.tok.isWs = false) (hpre : ∀ x ∈ pre, x.tok.isWs = true) :
    FirstAt (upcoming cfg q) NonWs pre.length t := by
  refine ⟨upcoming_head (by rw [hq]; simp), ht, ?_⟩
  intro j hj
  refine ⟨pre[j], upcoming_head (by rw [hq, List.getElem?_append_left hj, List.getElem?_eq_getElem hj]), ?_⟩
  unfold NonWs
  rw [hpre _ (List.getElem_mem hj)]; simp

theorem ReadErr.stream {cfg q e q'} (h : ReadErr cfg q e q') : ∃ i, upcoming cfg q i = .error e := by
  obtain ⟨h1, h2⟩ := h
  refine ⟨q'.queue.length, ?_⟩
  rw [← h1.upcoming]
  unfold upcoming
  rw [List.getElem?_eq_none (by omega)]
  simp [nthLexed, h2, Except.map]

/-- Reading a token, skipping whitespace -/
theorem nextAllowing_spec (cfg : ParserConfig) (q : TokenQueue) (hq : QInv q) {pre t post}
    (hs : q.queue = pre ++ t :: post) (hl : pre.length = q.nextNonWs) :
    (∃ q', nextAllowingUnresolved cfg q = .ok t.unwrapMath q' ∧ Ext cfg { q with queue := post } q' ∧ QInv q') ∨
    (∃ e q', nextAllowingUnresolved cfg q = .err e q' ∧ ReadErr cfg { q with queue := post } e q') := by
  unfold nextAllowingUnresolved
  have : q.queue.drop q.nextNonWs = t :: post := by rw [hs, ← hl]; simp
  rw [this]
  simp only [St.bind]
  rcases ensure_spec cfg { q with queue := post } hq.more with ⟨q', h1, h2, h3⟩ | ⟨e, q', h1, h2⟩
  · rw [h1]; exact Or.inl ⟨q', rfl, h2, h3⟩
  · rw [h1]; exact Or.inr ⟨e, q', rfl, h2⟩

/-- Reading any token -/
theorem nextAnyAllowing_spec (cfg : ParserConfig) (q : TokenQueue) (hq : QInv q) {t post}
    (hs : q.queue = t :: post) :
    (∃ q', nextAnyAllowingUnknown cfg q = .ok t q' ∧ Ext cfg { q with queue := post } q' ∧ QInv q') ∨
    (∃ e q', nextAnyAllowingUnknown cfg q = .err e q' ∧ ReadErr cfg { q with queue := post } e q') := by
  unfold nextAnyAllowingUnknown
  rw [hs]
  simp only
  split
  rotate_left
  · simp only [St.bind]
    rcases ensure_spec cfg { q with queue := post } hq.more with ⟨q', h1, h2, h3⟩ | ⟨e, q', h1, h2⟩
    · rw [h1]; exact Or.inl ⟨q', rfl, h2, h3⟩
    · rw [h1]; exact Or.inr ⟨e, q', rfl, h2⟩
  · rename_i p hn
    refine Or.inl ⟨_, rfl, ⟨[], .nil _, by simp, rfl, rfl, rfl, rfl⟩, ?_, hq.more⟩
    have := hq.next
    rw [hs, hn] at this
    unfold findNonWs at this
    split at this
    · simpa using this
    · cases this

theorem QInv.push {q} (h : QInv q) (ts : List QueuedTok) : QInv (q.queueInFront ts) := by
  refine ⟨?_, h.more⟩
  unfold queueInFront updateNextNonWs
  simp only
  have : (findNonWs (ts ++ q.queue)).isSome := by
    induction ts with
    | nil => simp [h.next]
    | cons t ts ih =>
      simp only [List.cons_append, findNonWs]
      split <;> simp [ih]
  cases hf : findNonWs (ts ++ q.queue) with
  | none => rw [hf] at this; cases this
  | some p => rfl

/-- The token is a command without meaning and that is an error. -/
def Rejected (cfg : ParserConfig) (t : QueuedTok) (e : LatexError) : Prop :=
  ∃ name, t.tok = .unresolvedCommand name ∧ cfg.ignoreUnknownCommands = false ∧
    e = t.span.err (.unknownCommand name)

theorem reject_spec (cfg : ParserConfig) (q : TokenQueue) (t : QueuedTok) :
    (rejectUnknownCommand t cfg q = .ok () q ∧ ∀ e, ¬ Rejected cfg t e) ∨
    (∃ e, rejectUnknownCommand t cfg q = .err e q ∧ Rejected cfg t e) := by
  obtain ⟨tok, span, nm⟩ := t
  unfold rejectUnknownCommand
  simp only [bind, St.bind, St.config]
  by_cases h : ∃ name, tok = .unresolvedCommand name
  · obtain ⟨name, rfl⟩ := h
    cases hc : cfg.ignoreUnknownCommands with
    | true =>
      refine Or.inl ⟨by simp [St.pure], ?_⟩
      rintro e ⟨_, _, h', _⟩
      rw [hc] at h'; cases h'
    | false => exact Or.inr ⟨_, rfl, name, rfl, hc, rfl⟩
  · refine Or.inl ⟨?_, ?_⟩
    · cases tok with
      | unresolvedCommand name => exact absurd ⟨name, rfl⟩ h
      | _ => rfl
    · rintro e ⟨name, h', _⟩
      exact h ⟨name, h'⟩

theorem next_spec (cfg : ParserConfig) (q : TokenQueue) (hq : QInv q) {pre t post}
    (hs : q.queue = pre ++ t :: post) (hl : pre.length = q.nextNonWs) :
    (∃ q', nextKeepingName cfg q = .ok t.unwrapMath q' ∧ Ext cfg { q with queue := post } q' ∧ QInv q' ∧
      ∀ e, ¬ Rejected cfg t.unwrapMath e) ∨
    (∃ e q', nextKeepingName cfg q = .err e q' ∧ Ext cfg { q with queue := post } q' ∧
      (q'.lexer.nextToken = .error e ∨ Rejected cfg t.unwrapMath e)) := by
  unfold nextKeepingName
  simp only [bind, St.bind]
  rcases nextAllowing_spec cfg q hq hs hl with ⟨q', h1, h2, h3⟩ | ⟨e, q', h1, h2⟩
  · rw [h1]
    simp only
    rcases reject_spec cfg q' t.unwrapMath with ⟨h4, h5⟩ | ⟨e, h4, h5⟩
    · rw [h4]; exact Or.inl ⟨q', rfl, h2, h3, h5⟩
    · rw [h4]; exact Or.inr ⟨e, q', rfl, h2, Or.inr h5⟩
  · rw [h1]; exact Or.inr ⟨e, q', rfl, h2.1, Or.inl h2.2⟩

theorem nextAny_spec (cfg : ParserConfig) (q : TokenQueue) (hq : QInv q) {t post}
    (hs : q.queue = t :: post) :
    (∃ q', nextAnyKeepingName cfg q = .ok t q' ∧ Ext cfg { q with queue := post } q' ∧ QInv q' ∧
      ∀ e, ¬ Rejected cfg t e) ∨
    (∃ e q', nextAnyKeepingName cfg q = .err e q' ∧ Ext cfg { q with queue := post } q' ∧
      (q'.lexer.nextToken = .error e ∨ Rejected cfg t e)) := by
  unfold nextAnyKeepingName
  simp only [bind, St.bind]
  rcases nextAnyAllowing_spec cfg q hq hs with ⟨q', h1, h2, h3⟩ | ⟨e, q', h1, h2⟩
  · rw [h1]
    simp only
    rcases reject_spec cfg q' t with ⟨h4, h5⟩ | ⟨e, h4, h5⟩
    · rw [h4]; exact Or.inl ⟨q', rfl, h2, h3, h5⟩
    · rw [h4]; exact Or.inr ⟨e, q', rfl, h2, Or.inr h5⟩
  · rw [h1]; exact Or.inr ⟨e, q', rfl, h2.1, Or.inl h2.2⟩

/-! ### What the operations mean for the stream of tokens -/

theorem Stream.drop_drop (u : Stream) (a b : Nat) : (u.drop a).drop b = u.drop (a + b) := by
  funext i; unfold Stream.drop; rw [Nat.add_assoc]

/-- Reading past some tokens: the stream afterwards -/
theorem Ext.upcoming_drop {cfg} {q q' : TokenQueue} {pre post : List QueuedTok} (hs : q.queue = pre ++ post)
    (h : Ext cfg { q with queue := post } q') : Spec.upcoming cfg q' = (Spec.upcoming cfg q).drop pre.length := by
  rw [h.upcoming, Verif.upcoming_drop hs]

/-- A lexer error after reading past some tokens is one in the stream before. -/
theorem Ext.stream_error {cfg e} {q q' : TokenQueue} {pre post : List QueuedTok} (hs : q.queue = pre ++ post)
    (h : Ext cfg { q with queue := post } q') (he : q'.lexer.nextToken = .error e) :
    ∃ i, Spec.upcoming cfg q i = .error e := by
  obtain ⟨i, hi⟩ := ReadErr.stream ⟨h, he⟩
  rw [Verif.upcoming_drop hs] at hi
  exact ⟨_, hi⟩

theorem ws_no_class {t : Token} (h : t.isWs = true) : t.cls = none := by
  cases t <;> first | rfl | cases h

theorem runOp_spec (cfg : ParserConfig) (q : TokenQueue) (hq : QInv q) (op : QueueOp) :
    (∃ out q', runOp op cfg q = .ok out q' ∧ QInv q' ∧
      StreamStep (upcoming cfg q) op out (upcoming cfg q')) ∨
    (∃ e q', runOp op cfg q = .err e q' ∧ StreamFails cfg (upcoming cfg q) op e) := by
  obtain ⟨pre, t, post, hs, hl, hw, hpre⟩ := hq.split
  have hfirst : FirstAt (upcoming cfg q) NonWs pre.length t := firstAt_queue hs hw hpre
  cases op with
  | peek =>
    refine Or.inl ⟨_, q, rfl, hq, ?_⟩
    rw [peek_eq hs hl]
    exact .peek hfirst
  | peekAny =>
    refine Or.inl ⟨_, q, rfl, hq, ?_⟩
    have : ∃ t0 rest, q.queue = t0 :: rest := by
      rw [hs]; cases pre <;> simp
    obtain ⟨t0, rest, h0⟩ := this
    have : q.peekAny = t0.ts := by unfold peekAny peekAnyKeepingName; rw [h0]; rfl
    rw [this]
    exact .peekAny (upcoming_head (by rw [h0]; rfl))
  | peekSecond =>
    unfold runOp peekSecond
    simp only [bind, St.bind, pure, St.pure, St.get]
    rcases findOrLoadAfterNext_spec search_nonWs cfg q hq with
      ⟨r, q', init, t', post', h1, h2, h3, h4, h5, h6, h7⟩ | ⟨e, q', h1, h2⟩
    · rw [h1]
      refine Or.inl ⟨_, q', rfl, h3, ?_⟩
      have hr : t'.tok.isWs = false ∧ r = q.nextNonWs + 1 + init.length := by
        unfold isNotWhitespace at h6
        split at h6
        · cases h6
        · rename_i h; cases h6; exact ⟨by simpa using h, rfl⟩
      have hget : ∀ j, q'.queue[q.nextNonWs + 1 + j]? = (init ++ t' :: post')[j]? := by
        intro j; rw [← h5, List.getElem?_drop]
      have hx : q'.queue[r]? = some t' := by rw [hr.2, hget]; simp
      simp only [Option.bind_some, hx, Option.getD_some]
      rw [h2.upcoming]
      refine .peekSecond hfirst (p' := init.length) ⟨?_, hr.1, ?_⟩
      · unfold Stream.drop
        rw [← h2.upcoming]
        exact upcoming_head (by rw [hl, hget]; simp)
      · intro j hj
        refine ⟨init[j], ?_, ?_⟩
        · unfold Stream.drop
          rw [← h2.upcoming]
          exact upcoming_head (by rw [hl, hget, List.getElem?_append_left hj, List.getElem?_eq_getElem hj])
        · have := h7 j init[j] (List.getElem?_eq_getElem hj)
          unfold isNotWhitespace at this
          unfold NonWs
          split at this
          · rename_i h; rw [h]; simp
          · cases this
    · rw [h1]
      obtain ⟨i, hi⟩ := h2.stream
      exact Or.inr ⟨e, q', rfl, .lex hi⟩
  | peekClass =>
    unfold runOp peekClassToken
    simp only [bind, St.bind, pure, St.pure, St.get]
    rw [peek_eq hs hl]
    have hnope : ∀ j (hj : j < pre.length), ¬ HasClass (pre[j]).tok := by
      intro j hj
      unfold HasClass
      rw [ws_no_class (hpre _ (List.getElem_mem hj))]; simp
    cases hc : t.ts.tok.cls with
    | some c =>
      refine Or.inl ⟨.cls c, q, rfl, hq, .peekClass (p := pre.length) (t := t) ⟨hfirst.1, ?_, ?_⟩ hc⟩
      · unfold HasClass; rw [show t.tok.cls = some c from hc]; rfl
      · intro j hj
        exact ⟨pre[j], upcoming_head (by rw [hs, List.getElem?_append_left hj, List.getElem?_eq_getElem hj]),
          hnope j hj⟩
    | none =>
      simp only [St.bind, St.get, St.pure]
      rcases findOrLoadAfterNext_spec search_class cfg q hq with
        ⟨r, q', init, t', post', h1, h2, h3, h4, h5, h6, h7⟩ | ⟨e, q', h1, h2⟩
      · rw [h1]
        refine Or.inl ⟨.cls r.2, q', rfl, h3, ?_⟩
        have hr : t'.tok.cls = some r.2 := by
          unfold hasClass at h6
          cases hh : t'.tok.cls with
          | none => rw [hh] at h6; cases h6
          | some c => rw [hh] at h6; cases h6; rfl
        have hget : ∀ j, q'.queue[q.nextNonWs + 1 + j]? = (init ++ t' :: post')[j]? := by
          intro j; rw [← h5, List.getElem?_drop]
        rw [h2.upcoming]
        refine .peekClass (p := pre.length + 1 + init.length) (t := t') ⟨?_, ?_, ?_⟩ hr
        · rw [← h2.upcoming]
          exact upcoming_head (by rw [hl, hget]; simp)
        · unfold HasClass; rw [hr]; rfl
        · intro j hj
          by_cases hj1 : j < pre.length
          · exact ⟨pre[j], upcoming_head (by rw [hs, List.getElem?_append_left hj1,
              List.getElem?_eq_getElem hj1]), hnope j hj1⟩
          · by_cases hj2 : j = pre.length
            · subst hj2
              refine ⟨t, hfirst.1, ?_⟩
              unfold HasClass; rw [show t.tok.cls = none from hc]; simp
            · obtain ⟨k, rfl⟩ : ∃ k, j = pre.length + 1 + k := ⟨j - (pre.length + 1), by omega⟩
              have hk : k < init.length := by omega
              refine ⟨init[k], ?_, ?_⟩
              · rw [← h2.upcoming]
                exact upcoming_head (by rw [hl, hget, List.getElem?_append_left hk,
                  List.getElem?_eq_getElem hk])
              · have := h7 k init[k] (List.getElem?_eq_getElem hk)
                unfold hasClass at this
                unfold HasClass
                cases hh : init[k].tok.cls with
                | none => simp
                | some c => rw [hh] at this; cases this
      · rw [h1]
        obtain ⟨i, hi⟩ := h2.stream
        exact Or.inr ⟨e, q', rfl, .lex hi⟩
  | next =>
    unfold runOp TokenQueue.next
    simp only [bind, St.bind, pure, St.pure]
    have hs' : q.queue = (pre ++ [t]) ++ post := by rw [hs]; simp
    rcases next_spec cfg q hq hs hl with ⟨q', h1, h2, h3, h4⟩ | ⟨e, q', h1, h2, h3⟩
    · rw [h1]
      refine Or.inl ⟨_, q', rfl, h3, ?_⟩
      rw [h2.upcoming_drop hs', show (pre ++ [t]).length = pre.length + 1 by simp]
      exact .next hfirst
    · rw [h1]
      refine Or.inr ⟨e, q', rfl, ?_⟩
      rcases h3 with h3 | ⟨name, h3, h4, rfl⟩
      · obtain ⟨i, hi⟩ := h2.stream_error hs' h3
        exact .lex hi
      · exact StreamFails.next (t := t) hfirst h3 h4
  | nextAny =>
    unfold runOp TokenQueue.nextAny
    simp only [bind, St.bind, pure, St.pure]
    obtain ⟨t0, rest, h0⟩ : ∃ t0 rest, q.queue = t0 :: rest := by
      rw [hs]; cases pre <;> simp
    have hs' : q.queue = [t0] ++ rest := by rw [h0]; simp
    have hu : upcoming cfg q 0 = .ok t0 := upcoming_head (by rw [h0]; rfl)
    rcases nextAny_spec cfg q hq h0 with ⟨q', h1, h2, h3, h4⟩ | ⟨e, q', h1, h2, h3⟩
    · rw [h1]
      refine Or.inl ⟨_, q', rfl, h3, ?_⟩
      rw [h2.upcoming_drop hs']
      exact .nextAny hu
    · rw [h1]
      refine Or.inr ⟨e, q', rfl, ?_⟩
      rcases h3 with h3 | ⟨name, h3, h4, rfl⟩
      · obtain ⟨i, hi⟩ := h2.stream_error hs' h3
        exact .lex hi
      · exact .nextAny hu h3 h4
  | push ts =>
    refine Or.inl ⟨_, _, rfl, hq.push ts, ?_⟩
    rw [upcoming_push]
    exact .push ts

end Verif

import Verif.Lemmas.NestArgs
/-! What is read for definitions, and what they change. -/
namespace Verif
open Model Spec Lexer' TokenQueue

variable {cfg : ParserConfig}

/-! ### Making a definition -/

theorem nonWs_map {f : QueuedTok → QueuedTok} {l : List QueuedTok} (h : ∀ t ∈ l, (f t).tok.isWs = t.tok.isWs) :
    findNonWs (l.map f) = findNonWs l := by
  induction l with
  | nil => rfl
  | cons t l ih =>
    simp only [List.map_cons, findNonWs]
    rw [h t (by simp), ih fun x hx => h x (by simp [hx])]

/-- The queue with some of its tokens looked up again -/
theorem requeue {q : TokenQueue} {st : CmdStores} {f : QueuedTok → QueuedTok} (hq : QInv q)
    (hg : AllFit q.stores (upcoming cfg q))
    (hf : ∀ t ∈ q.queue, f t = t ∨ ∃ tok name, f t = t.withToken tok ∧
      (t.name = some name ∨ t.tok = .unresolvedCommand name) ∧ known cfg st name = some tok) :
    QInv { q with stores := st, queue := q.queue.map f } ∧
      Renamed cfg st (upcoming cfg q) (upcoming cfg { q with stores := st, queue := q.queue.map f }) := by
  refine ⟨⟨?_, hq.more⟩, fun i => ?_⟩
  · show findNonWs (q.queue.map f) = some q.nextNonWs
    rw [nonWs_map, hq.next]
    intro t ht
    rcases hf t ht with h | ⟨tok, name, h1, h2, h3⟩
    · rw [h]
    · obtain ⟨i, hi, rfl⟩ := List.getElem_of_mem ht
      have hfit := hg.toks i _ (upcoming_head (List.getElem?_eq_getElem hi))
      rw [h1]
      show tok.isWs = _
      rw [(resolve_props h3).1]
      rcases h2 with h2 | h2
      · cases hw : (q.queue[i]).tok.isWs with
        | false => rfl
        | true => rw [hfit.2 hw] at h2; cases h2
      · rw [h2]; rfl
  · unfold upcoming
    simp only [List.getElem?_map, List.length_map]
    cases hi : q.queue[i]? with
    | some t =>
      simp only [Option.map_some]
      rcases hf t (List.mem_of_getElem? hi) with h | ⟨tok, name, h1, h2, h3⟩
      · left; rw [h]
      · exact .inr ⟨t, tok, name, rfl, by rw [h1], h2, .inl h3⟩
    | none =>
      simp only [Option.map_none]
      cases nthLexed (i - q.queue.length) q.lexer with
      | error e => exact .inl rfl
      | ok o =>
        cases o with
        | token t => exact .inl rfl
        | commandName name sp =>
          refine .inr ⟨_, (st.resolveCommand cfg.builtin name).getD (.unresolvedCommand name), name, rfl, rfl, .inl rfl, ?_⟩
          unfold known
          cases st.resolveCommand cfg.builtin name with
          | none => exact .inr rfl
          | some t => exact .inl rfl

theorem define_ok {q q' : TokenQueue} {name n body cls replace g ok} (hq : QInv q) (hg : AllFit q.stores (upcoming cfg q))
    (h : TokenQueue.define name n body cls replace g cfg q = .ok ok q') :
    QInv q' ∧ ((ok = false ∧ q' = q) ∨
      (q.stores.define name n body cls replace (g || cfg.globalGroup) = some q'.stores ∧
        Renamed cfg q'.stores (upcoming cfg q) (upcoming cfg q'))) := by
  unfold TokenQueue.define at h
  dsimp only at h
  cases hd : q.stores.define name n body cls replace (g || cfg.globalGroup) with
  | none => rw [hd] at h; cases h; exact ⟨hq, .inl ⟨rfl, rfl⟩⟩
  | some st =>
    rw [hd] at h
    dsimp only at h
    cases replace with
    | true =>
      rw [if_pos rfl] at h
      cases hget : (st.store (if (g || cfg.globalGroup) = true then .document else .loc)).get name
          (if (g || cfg.globalGroup) = true then .document else .loc) with
      | none =>
        rw [hget] at h
        cases h
        have := requeue (f := id) (st := st) hq hg fun t _ => .inl rfl
        rw [List.map_id] at this
        exact ⟨this.1, .inr ⟨rfl, this.2⟩⟩
      | some tok =>
        rw [hget] at h
        cases h
        have := requeue (f := fun t => if t.name = some name then t.withToken tok else t) (st := st) hq hg fun t _ => by
          by_cases hn : t.name = some name
          · exact .inr ⟨tok, name, if_pos hn, .inl hn, define_resolves hd hget⟩
          · exact .inl (if_neg hn)
        exact ⟨this.1, .inr ⟨rfl, this.2⟩⟩
    | false =>
      rw [if_neg (by simp)] at h
      cases h
      have := requeue (f := fun t => match t.tok with
          | .unresolvedCommand name =>
            match st.resolveCommand cfg.builtin name with
            | some tok => t.withToken tok
            | none => t
          | _ => t) (st := st) hq hg fun t _ => by
        split
        · rename_i nm htok
          split
          · rename_i tok hr
            exact .inr ⟨tok, nm, rfl, .inr htok, hr⟩
          · exact .inl rfl
        · exact .inl rfl
      exact ⟨this.1, .inr ⟨rfl, this.2⟩⟩

/-! ### Reading tokens as they are -/

/-- The computation reads some tokens as they are; they and the result are related. -/
def Rough {α : Type} (R : α → List QueuedTok → Prop) (m : P α) : Prop :=
  ∀ cfg s a s', QInv s.q → AllFit s.q.stores (upcoming cfg s.q) → m cfg s = .ok a s' →
    QInv s'.q ∧ s'.q.stores = s.q.stores ∧ s'.env = s.env ∧
      ∃ l, StartsWith (upcoming cfg s.q) l ∧ upcoming cfg s'.q = (upcoming cfg s.q).drop l.length ∧ R a l

namespace Rough
variable {α β : Type} {R : α → List QueuedTok → Prop} {S : β → List QueuedTok → Prop}

theorem bind {m : P α} {f : α → P β} (hm : Rough R m) (hf : ∀ a l, R a l → Rough (fun b l' => S b (l ++ l')) (f a)) :
    Rough S (m >>= f) := by
  intro cfg s b s' hq hg h
  obtain ⟨a, s1, h1, h2⟩ := bind_inv h
  obtain ⟨a1, a2, a3, l, a4, a5, a6⟩ := hm cfg s a s1 hq hg h1
  obtain ⟨b1, b2, b3, l', b4, b5, b6⟩ := hf a l a6 cfg s1 b s' a1 (by rw [a2, a5]; exact hg.drop _) h2
  refine ⟨b1, b2.trans a2, b3.trans a3, l ++ l', a4.append (a5 ▸ b4), ?_, b6⟩
  rw [b5, a5, drop_drop, List.length_append]

theorem pure {a : α} (h : R a []) : Rough R (Pure.pure a : P α) := by
  intro cfg s a' s' hq hg h'
  cases h'
  exact ⟨hq, rfl, rfl, [], .nil _, (Stream.drop_zero _).symm, h⟩

theorem mono {R' : α → List QueuedTok → Prop} {m : P α} (hm : Rough R m) (h : ∀ a l, R a l → R' a l) : Rough R' m := by
  intro cfg s a s' hq hg h'
  obtain ⟨a1, a2, a3, l, a4, a5, a6⟩ := hm cfg s a s' hq hg h'
  exact ⟨a1, a2, a3, l, a4, a5, h _ _ a6⟩

theorem fail (sp k) : Rough R (P.fail sp k : P α) := by intro cfg s a s' _ _ h; cases h
theorem outOfFuel : Rough R (St.outOfFuel : P α) := by intro cfg s a s' _ _ h; cases h

theorem ofExcept {r : Except LatexError α} (h : ∀ a, r = .ok a → R a []) : Rough R (St.ofExcept r : P α) := by
  cases r with
  | ok a => exact pure (h a rfl)
  | error e => intro cfg s a s' _ _ h; cases h

theorem peek : Rough (fun _ l => l = []) P.peek := by
  intro cfg s a s' hq hg h; cases h
  exact ⟨hq, rfl, rfl, [], .nil _, (Stream.drop_zero _).symm, rfl⟩

theorem peekAny : Rough (fun t l => fit t.tok = true ∧ l = []) P.peekAny := by
  intro cfg s a s' hq hg h; cases h
  obtain ⟨qt, h1, h2⟩ := peekAny_first cfg hq
  refine ⟨hq, rfl, rfl, [], .nil _, (Stream.drop_zero _).symm, ?_, rfl⟩
  unfold TokenQueue.peekAny
  rw [h2]
  exact hg.stream _ _ h1

theorem loopFuel : Rough (fun _ l => l = []) P.loopFuel := by
  intro cfg s a s' hq hg h; cases h
  exact ⟨hq, rfl, rfl, [], .nil _, (Stream.drop_zero _).symm, rfl⟩

/-- What is read by skipping whitespace -/
theorem of_first {u : Stream} {p qt} (h : FirstAt u NonWs p qt) : ∃ l, StartsWith u l ∧ l.length = p + 1 ∧ qt ∈ l := by
  obtain ⟨pre, h1, h2, -⟩ := startsWith_ws h
  exact ⟨pre ++ [qt], h2, by simp [h1], by simp⟩

theorem nextKeeping : Rough (fun t l => ∃ x ∈ l, t = asRead false x) (liftQ nextKeepingName) := by
  intro cfg s a s' hq hg h
  obtain ⟨q', h1, rfl⟩ := liftQ_ok h
  obtain ⟨p, qt, a1, rfl, a3, a4, a5⟩ := nextKeeping_ok hq h1
  obtain ⟨l, b1, b2, b3⟩ := of_first a1
  exact ⟨a4, a5, rfl, l, b1, by rw [b2]; exact a3, qt, b3, rfl⟩

theorem nextAllowing : Rough (fun _ _ => True) (liftQ nextAllowingUnresolved) := by
  intro cfg s a s' hq hg h
  obtain ⟨q', h1, rfl⟩ := liftQ_ok h
  obtain ⟨p, qt, a1, rfl, a3, a4, a5⟩ := nextAllowing_ok hq h1
  obtain ⟨l, b1, b2, b3⟩ := of_first a1
  exact ⟨a4, a5, rfl, l, b1, by rw [b2]; exact a3, trivial⟩

theorem next : Rough (fun t l => ∃ x ∈ l, t.tok = (asRead false x).tok) P.next := by
  intro cfg s a s' hq hg h
  obtain ⟨p, qt, a1, rfl, a3, a4, a5, a6⟩ := next_ok hq h
  obtain ⟨l, b1, b2, b3⟩ := of_first a1
  exact ⟨a4, a5, a6, l, b1, by rw [b2]; exact a3, qt, b3, rfl⟩

theorem nextAny : Rough (fun _ _ => True) P.nextAny := by
  intro cfg s a s' hq hg h
  obtain ⟨qt, a1, rfl, a3, a4, a5, a6⟩ := nextAny_ok hq h
  refine ⟨a4, a5, a6, [qt], ?_, a3, trivial⟩
  intro i hi
  have : i = 0 := by simpa using hi
  subst this; exact a1

theorem recordBody : Rough (fun ts l => ∀ t ∈ ts, t ∈ l) (liftQ recordMacroBody) := by
  intro cfg s a s' hq hg h
  obtain ⟨q', h1, rfl⟩ := liftQ_ok h
  obtain ⟨t, q1, h2, h3⟩ := bind_inv h1
  obtain ⟨t', q1', h2', h2''⟩ := bind_inv h2
  cases h2''
  obtain ⟨p, qt, a1, rfl, a3, a4, a5⟩ := nextKeeping_ok hq h2'
  obtain ⟨l, b1, b2, b3⟩ := of_first a1
  obtain ⟨q2, q3, h4, h5⟩ := bind_inv h3
  cases h4
  rcases recordMacroBodyLoop_spec cfg q1.loopFuel 0 [] q1 a4 (by have := cnt_loopFuel q1; omega) with
    ⟨toks', q3, c1, c2, c3, -, c4⟩ | ⟨e, q3, c1, -⟩
  · rw [c1] at h5
    cases h5
    generalize hr : (Except.ok (a, upcoming cfg q') : Except LatexError _) = r at c4
    cases c4 with
    | close l' close d1 d2 d3 d4 d5 =>
      simp only [Except.ok.injEq, Prod.mk.injEq, List.nil_append] at hr
      obtain ⟨rfl, hr2⟩ := hr
      have e1 : upcoming cfg q1 = (upcoming cfg s.q).drop l.length := by rw [b2]; exact a3
      refine ⟨c2, c3.trans a5, rfl, l ++ a, b1.append (e1 ▸ d1), ?_, fun t ht => List.mem_append_right _ ht⟩
      show upcoming cfg q' = _
      rw [hr2, e1, drop_drop, List.length_append]
    | _ => cases hr
  · rw [c1] at h5; cases h5

end Rough

/-- Read tokens, whatever they are. -/
abbrev RoughAny {α : Type} (m : P α) : Prop := Rough (fun _ _ => True) m

theorem Rough.any {α : Type} {R : α → List QueuedTok → Prop} {m : P α} (h : Rough R m) : RoughAny m := h.mono fun _ _ _ => trivial

theorem reads_name : RoughAny (liftQ readDefinitionName) := by
  intro cfg s a s' hq hg h
  obtain ⟨q', h1, rfl⟩ := liftQ_ok h
  obtain ⟨t, q1, h2, h3⟩ := bind_inv h1
  obtain ⟨p, qt, a1, rfl, a3, a4, a5⟩ := nextAllowing_ok hq h2
  obtain ⟨l, b1, b2, b3⟩ := Rough.of_first a1
  have key : q' = q1 := by
    cases ht : qt.unwrapMath.tok <;> rw [ht] at h3 <;> first
      | (cases h3; rfl)
      | (cases hn : qt.unwrapMath.name <;> rw [hn] at h3 <;> cases h3; rfl)
  subst key
  exact ⟨a4, a5, rfl, l, b1, by rw [b2]; exact a3, trivial⟩

theorem reads_nameBrace : RoughAny nameBrace := by
  refine Rough.peek.bind fun t l _ => ?_
  split
  · exact Rough.next.bind fun _ _ _ => .pure trivial
  · exact .pure trivial

theorem reads_nameBraceEnd (b) : RoughAny (nameBraceEnd b) := by
  unfold nameBraceEnd
  split
  · refine Rough.next.bind fun t _ _ => ?_
    split
    · exact .pure trivial
    · exact .fail _ _
  · exact .pure trivial

theorem reads_skipEquals : RoughAny skipEquals := by
  refine Rough.peek.bind fun t l _ => ?_
  split
  · exact Rough.next.bind fun _ _ _ => .pure trivial
  · exact .pure trivial

theorem reads_skipWs (fuel) : RoughAny (skipWs fuel) := by
  induction fuel with
  | zero => exact .outOfFuel
  | succ fuel ih =>
    refine Rough.peekAny.bind fun t l _ => ?_
    split
    · exact Rough.nextAny.bind fun _ _ _ => ih
    · exact .pure trivial

theorem raw_numArgs : Rough (fun n _ => n ≤ 9) parseNumArgs := by
  refine Rough.peek.bind fun t l _ => ?_
  split
  · refine Rough.next.bind fun _ _ _ => Rough.next.bind fun t _ _ => ?_
    split
    · refine Rough.next.bind fun _ _ _ => ?_
      split
      · refine .pure ?_
        split
        · rename_i c _ _ _ _ _ hd
          unfold isAsciiDigit at hd
          simp only [Bool.and_eq_true, decide_eq_true_eq] at hd
          have := hd.2
          show c.toNat - 48 ≤ 9
          have h9 : c.toNat ≤ '9'.toNat := this
          have : '9'.toNat = 57 := rfl
          omega
        · exact Nat.zero_le _
      · exact .fail _ _
    · exact .fail _ _
  · exact .pure (Nat.zero_le _)

/-- The tokens come from those which have been read. -/
def From' (ts l : List QueuedTok) : Prop := ∀ t ∈ ts, ∃ x ∈ l, ∃ keep, t = asRead keep x

theorem raw_body : Rough From' parseDefinitionBody := by
  refine Rough.peek.bind fun t l _ => ?_
  split
  · refine Rough.recordBody.bind fun ts l1 h1 => Rough.next.bind fun _ l2 _ => .pure ?_
    intro t ht
    exact ⟨t, by simp [h1 t ht], true, rfl⟩
  · refine Rough.nextKeeping.bind fun t l1 ⟨x, h1, h2⟩ => ?_
    split
    · exact .fail _ _
    · refine .pure ?_
      intro t' ht
      cases List.mem_singleton.1 ht
      exact ⟨x, by simp [h1], false, h2⟩

theorem raw_params (fuel n) (hn : n ≤ 9) : Rough (fun n _ => n ≤ 9) (paramLoop fuel n) := by
  induction fuel generalizing n with
  | zero => exact .outOfFuel
  | succ fuel ih =>
    refine Rough.peekAny.bind fun t l ⟨hf, _⟩ => ?_
    split
    · exact .pure hn
    · rename_i m hm
      split
      · exact .fail _ _
      · rename_i hne
        rw [hm] at hf
        simp only [fit, decide_eq_true_eq] at hf
        exact Rough.nextAny.bind fun _ _ _ => ih _ (by omega)
    · exact .fail _ _
    · exact .fail _ _

theorem mapRecorded_recorded {ts l : List QueuedTok} {n body cls} (ht : From' ts l)
    (h : mapRecordedTokens ts n = .ok (body, cls)) : ∀ r ∈ body, Recorded l n r := by
  unfold mapRecordedTokens at h
  split at h
  · cases h
  · rename_i body' hb
    cases h
    induction ts generalizing body with
    | nil => cases hb; simp
    | cons t ts ih =>
      rw [List.mapM_cons] at hb
      cases h1 : mapRecordedToken n t with
      | error e => rw [h1] at hb; cases hb
      | ok r =>
        rw [h1] at hb
        cases h2 : ts.mapM (mapRecordedToken n) with
        | error e => rw [h2] at hb; cases hb
        | ok rs =>
          rw [h2] at hb
          cases hb
          intro x hx
          rcases List.mem_cons.1 hx with rfl | hx
          · obtain ⟨y, hy, keep, rfl⟩ := ht t (by simp)
            unfold mapRecordedToken at h1
            split at h1
            · split at h1
              · cases h1
              · cases h1
                exact .inl (by omega)
            · cases h1
            · cases h1
            · cases h1
            · cases h1
            · cases h1; trivial
            · split at h1
              · cases h1; trivial
              · cases h1
                unfold Recorded
                split
                · trivial
                · rename_i heq
                  exact .inr ⟨y, hy, keep, RecordedToken.token.inj heq⟩
                · rename_i heq
                  exact ⟨y, hy, keep, RecordedToken.token.inj heq⟩
          · exact ih (fun t h => ht t (by simp [h])) h2 x hx

/-! ### Definitions -/

/-- The command of a definition and these tokens have been read. -/
def Defining (l : List QueuedTok) (u0 u : Stream) : Prop :=
  ∃ p t, FirstAt u0 NonWs p t ∧ isDefinition t.tok.unwrapMath = true ∧ StartsWith (u0.drop (p + 1)) l ∧
    u = u0.drop (p + 1 + l.length)

variable {any : Bool}

theorem Judg.raw_bind {α β : Type} {R : α → List QueuedTok → Prop} {m : P α} {f : α → P β} {l} (hm : Rough R m)
    (hf : ∀ a l', R a l' → Judg any (Defining (l ++ l')) (f a)) : Judg any (Defining l) (m >>= f) := by
  rintro cfg s u0 b s' hq hg ⟨p, t, h1, h2, h3, h4⟩ h
  obtain ⟨a, s1, h5, h6⟩ := bind_inv h
  obtain ⟨a1, a2, a3, l', a4, a5, a6⟩ := hm cfg s a s1 hq (by rw [h4]; exact hg.drop _) h5
  obtain ⟨b1, b2, w, b3, b4⟩ := hf a l' a6 cfg s1 u0 b s' a1 (by rw [a2]; exact hg) ⟨p, t, h1, h2,
    h3.append (by rw [drop_drop, ← h4]; exact a4), by
      rw [a5, h4, drop_drop, List.length_append, Nat.add_assoc (p + 1)]⟩ h6
  rw [a2] at b3
  rw [a3] at b2 b4
  exact ⟨b1, b2, w, b3, b4⟩

/-- Nothing is defined. -/
theorem Judg.no_definition {α : Type} {l} {m : P α} (hm : Still m) : Judg any (Defining l) m := by
  rintro cfg s u0 b s' hq hg ⟨p, t, h1, h2, h3, h4⟩ h
  obtain ⟨a1, a2, a3, a4⟩ := hm cfg s b s' hq h
  refine ⟨a1, a4, [], ?_, fun _ b _ => .nil b⟩
  rw [a3]
  refine .define h1 h2 h3 (.inl rfl) (u1 := upcoming cfg s'.q) (fun i => .inl ?_) .nil
  rw [a2, h4]

theorem Judg.definition {α : Type} {l} {f : Bool → P α} {name n body cls replace g} (hn : n ≤ 9)
    (hb : ∀ r ∈ body, Recorded l n r) (hf : ∀ b, Still (f b)) :
    Judg any (Defining l) (liftQ (TokenQueue.define name n body cls replace g) >>= f) := by
  rintro cfg s u0 b s' hq hg hI h
  obtain ⟨ok, s1, h5, h6⟩ := bind_inv h
  obtain ⟨q1, h5', rfl⟩ := liftQ_ok h5
  obtain ⟨p, t, h1, h2, h3, h4⟩ := id hI
  obtain ⟨c1, c2, c3, c4⟩ := hf ok cfg _ b s' (define_ok hq (by rw [h4]; exact hg.drop _) h5').1 h6
  rcases (define_ok hq (by rw [h4]; exact hg.drop _) h5').2 with ⟨rfl, rfl⟩ | ⟨a1, a2⟩
  · exact Judg.no_definition (hf false) cfg s u0 b s' hq hg hI h6
  · refine ⟨c1, c4, [], ?_, fun _ b _ => .nil b⟩
    rw [c3, c2]
    exact .define h1 h2 h3 (.inr ⟨_, _, _, _, _, _, hn, hb, a1⟩) (h4 ▸ a2) .nil

theorem nest_let (g l) : Judg any (Defining l) (letCommand g) := by
  unfold letCommand
  refine Judg.raw_bind reads_name fun name l1 _ => ?_
  refine Judg.raw_bind reads_skipEquals fun _ l2 _ => ?_
  refine Judg.raw_bind Rough.next fun src l3 ⟨x, hx, hsrc⟩ => ?_
  split
  · exact .fail _ _
  · exact .fail _ _
  · refine Judg.definition (Nat.zero_le _) ?_ fun _ => ?_
    · intro r hr
      cases List.mem_singleton.1 hr
      unfold Recorded
      split
      · trivial
      · rename_i heq
        exact .inr ⟨x, by simp [hx], false, by rw [← hsrc]; exact RecordedToken.token.inj heq⟩
      · rename_i heq
        rw [← RecordedToken.token.inj heq]
        exact ⟨x, by simp [hx], false, hsrc.symm⟩
    · still

theorem nest_def (g l) : Judg any (Defining l) (defCommand g) := by
  unfold defCommand
  refine Judg.raw_bind reads_name fun name l1 _ => ?_
  refine Judg.raw_bind Rough.loopFuel fun _ l2 _ => ?_
  refine Judg.raw_bind (reads_skipWs _) fun _ l3 _ => ?_
  refine Judg.raw_bind Rough.loopFuel fun _ l4 _ => ?_
  refine Judg.raw_bind (raw_params _ _ (Nat.zero_le _)) fun n l5 hn => ?_
  refine Judg.raw_bind Rough.recordBody fun ts l6 hts => ?_
  refine Judg.raw_bind Rough.next fun _ l7 _ => ?_
  refine Judg.raw_bind (Rough.ofExcept (R := fun r _ => mapRecordedTokens ts n = .ok r) fun a h => h) fun r l8 hr => ?_
  refine Judg.definition hn ?_ fun _ => ?_
  · exact mapRecorded_recorded (fun t ht => ⟨t, by simp [hts t ht], true, rfl⟩) hr
  · still

theorem nest_define (mode l) : Judg any (Defining l) (defineCommand mode) := by
  unfold defineCommand
  refine Judg.raw_bind reads_nameBrace fun braced l1 _ => ?_
  refine Judg.raw_bind Rough.nextAllowing fun nameTok l2 _ => ?_
  refine Judg.raw_bind (Rough.ofExcept (R := fun _ _ => True) fun a h => trivial) fun target l3 _ => ?_
  refine Judg.raw_bind (reads_nameBraceEnd _) fun _ l4 _ => ?_
  refine Judg.raw_bind raw_numArgs fun n l5 hn => ?_
  refine Judg.raw_bind raw_body fun ts l6 hts => ?_
  refine Judg.raw_bind (Rough.ofExcept (R := fun r _ => mapRecordedTokens ts n = .ok r) fun a h => h) fun r l7 hr => ?_
  dsimp only
  split
  · exact Judg.no_definition (by still)
  · refine Judg.definition hn ?_ fun _ => ?_
    · refine mapRecorded_recorded (fun t ht => ?_) hr
      obtain ⟨x, hx, keep, he⟩ := hts t ht
      exact ⟨x, by simp [hx], keep, he⟩
    · still

theorem nest_global (fuel l) : Judg any (Defining l) (globalPrefix fuel) := by
  induction fuel generalizing l with
  | zero => exact .outOfFuel
  | succ fuel ih =>
    unfold globalPrefix
    refine Judg.raw_bind Rough.next fun t l1 _ => ?_
    split
    · exact nest_let _ _
    · exact nest_def _ _
    · exact ih _
    · exact .fail _ _
    · exact .fail _ _

/-- After the command of a definition -/
theorem Judg.defining {α : Type} {m : P α} {t : Token} (ht : isDefinition t = true) (hm : Judg any (Defining []) m) :
    Judg any (After t) m := by
  rintro cfg s u0 b s' hq hg ⟨p, qt, h1, rfl, h3⟩ h
  exact hm cfg s u0 b s' hq hg ⟨p, qt, h1, ht, .nil _, h3⟩ h

end Verif

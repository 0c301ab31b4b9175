import Verif.Lemmas.DoesTokens
import Verif.Props.Expansion
/-! Calls of macros on known tokens. -/
namespace Verif
open Model Spec Lexer' TokenQueue

variable {cfg : ParserConfig} {ts ts' : List Tk} {u : Stream}

/-! ### Tokens in front of a stream -/

theorem push_nil : u.push [] = u := by funext i; rfl

theorem push_cons {q : QueuedTok} {l : List QueuedTok} : u.push (q :: l) = (u.push l).push [q] := by
  funext i
  cases i with
  | zero => rfl
  | succ i =>
    show (match (q :: l)[i + 1]? with | some t => Except.ok t | none => u (i + 1 - (q :: l).length)) =
      (match l[i + 1 - [q].length]? with | some t => Except.ok t | none => u (i + 1 - [q].length - l.length))
    simp only [List.getElem?_cons_succ, List.length_cons, List.length_nil, Nat.add_sub_cancel, Nat.zero_add]
    rw [show i + 1 - (l.length + 1) = i - l.length by omega]

theorem push_append {l l' : List QueuedTok} : u.push (l ++ l') = (u.push l').push l := by
  induction l with
  | nil => rw [push_nil]; rfl
  | cons q l ih => rw [List.cons_append, push_cons, ih, ← push_cons]

theorem push_drop {q : QueuedTok} : (u.push [q]).drop 1 = u := by
  funext i
  show (match [q][1 + i]? with | some t => Except.ok t | none => u (1 + i - 1)) = u i
  rw [List.getElem?_eq_none (by simp)]
  simp

theorem comes_push_tok {q : QueuedTok} {b : Bool} (h : Comes u ts) : Comes (u.push [q]) (⟨q.tok, b⟩ :: ts) := by
  refine ⟨0, q, fun _ => rfl, (by intro j hj; omega), rfl, rfl, ?_⟩
  rw [Nat.zero_add, push_drop]; exact h

theorem comes_push_ws {q : QueuedTok} (hq : q.tok.isWs = true) (hl : looseHead ts = true) (h : Comes u ts) :
    Comes (u.push [q]) ts := by
  cases ts with
  | nil => trivial
  | cons t ts =>
    obtain ⟨k, qt, h0, h1, h2, h3, h4⟩ := h
    have hsucc : ∀ i, (u.push [q]) (i + 1) = u i := by
      intro i
      show (u.push [q]) (i + 1) = u i
      have := congrFun (push_drop (u := u) (q := q)) i
      rw [← this]
      show _ = (u.push [q]) (1 + i)
      rw [Nat.add_comm]
    refine ⟨k + 1, qt, (by intro ht; simp [looseHead, ht] at hl), ?_, (hsucc k).trans h2, h3, ?_⟩
    · intro j hj
      cases j with
      | zero => exact ⟨q, rfl, hq⟩
      | succ j =>
        obtain ⟨w, hw, hw'⟩ := h1 j (by omega)
        exact ⟨w, (hsucc j).trans hw, hw'⟩
    · have : (u.push [q]).drop (k + 1 + 1) = u.drop (k + 1) := by
        funext i
        show (u.push [q]) (k + 1 + 1 + i) = u (k + 1 + i)
        rw [show k + 1 + 1 + i = (k + 1 + i) + 1 by omega]
        exact hsucc _
      rw [this]; exact h4

theorem comes_loosen (h : Loosens ts ts') {fol : List Tk} (hc : Comes u (ts' ++ fol)) : Comes u (ts ++ fol) := by
  induction h generalizing u with
  | nil => exact hc
  | cons hb _ ih =>
    obtain ⟨k, qt, h0, h1, h2, h3, h4⟩ := hc
    exact ⟨k, qt, fun hx => h0 (hb hx), h1, h2, h3, ih h4⟩

theorem comes_loose {t : Token} {b b' : Bool} (hb : b = true → b' = true) (h : Comes u (⟨t, b'⟩ :: ts)) :
    Comes u (⟨t, b⟩ :: ts) := by
  obtain ⟨k, qt, h0, h1, h2, h3, h4⟩ := h
  exact ⟨k, qt, fun hx => h0 (hb hx), h1, h2, h3, h4⟩

/-- In front of any stream, the tokens `l` are read as `ts`. -/
def Raw (l : List QueuedTok) (ts : List Tk) : Prop :=
  ∀ ⦃u : Stream⦄ ⦃fol : List Tk⦄, looseHead fol = true → Comes u fol → Comes (u.push l) (ts ++ fol)

theorem Raw.nil : Raw [] [] := by
  intro u fol _ h
  rw [push_nil]; exact h

theorem Raw.token {q : QueuedTok} {b : Bool} {l : List QueuedTok} (h : Raw l ts) : Raw (q :: l) (⟨q.tok, b⟩ :: ts) := by
  intro u fol hl hc
  rw [push_cons]
  exact comes_push_tok (h hl hc)

theorem Raw.ws {q : QueuedTok} {l : List QueuedTok} (hq : q.tok.isWs = true) (hl : looseHead ts = true) (h : Raw l ts) :
    Raw (q :: l) ts := by
  intro u fol hf hc
  rw [push_cons]
  refine comes_push_ws hq ?_ (h hf hc)
  cases ts with
  | nil => exact hf
  | cons t ts => exact hl

/-! ### The tokens of an argument -/

theorem spaces_split : ∀ k, (∀ j < k, ∃ w, u j = .ok w ∧ w.tok.isWs = true) →
    ∃ l, StartsWith u l ∧ l.length = k ∧ (∀ w ∈ l, w.tok.isWs = true) := by
  intro k
  induction k with
  | zero => exact fun _ => ⟨[], (by intro i hi; cases hi), rfl, by simp⟩
  | succ k ih =>
    intro hk
    obtain ⟨l, g1, g2, g3⟩ := ih (fun j hj => hk j (by omega))
    obtain ⟨w, g4, g5⟩ := hk k (by omega)
    refine ⟨l ++ [w], ?_, by simp [g2], ?_⟩
    · intro i hi
      have hi' : i < l.length + 1 := by simpa using hi
      by_cases hlt : i < l.length
      · rw [List.getElem_append_left hlt]; exact g1 i hlt
      · have : i = k := by omega
        subst this
        rw [g4]; simp [g2]
    · intro y hy
      rcases List.mem_append.1 hy with hy | hy
      · exact g3 y hy
      · rw [List.mem_singleton.1 hy]; exact g5

/-- The tokens of a stream up to the one which is expected after `ts` -/
theorem comes_split {ts : List Tk} {x : Tk} {fol : List Tk} : ∀ {u : Stream}, Comes u (ts ++ x :: fol) →
    (∀ t ∈ ts, t.tok.isWs = false) → x.tok.isWs = false →
    ∃ l qt, StartsWith u l ∧ u l.length = .ok qt ∧ qt.tok = x.tok ∧ Comes (u.drop (l.length + 1)) fol ∧
      (l.map (·.tok)).filter (fun t => !t.isWs) = ts.map (·.tok) ∧ Raw l ts ∧
      (ts = [] → x.tight = true → l = []) := by
  induction ts with
  | nil =>
    intro u h _ hx
    obtain ⟨k, qt, h0, h1, h2, h3, h4⟩ := h
    obtain ⟨l, g1, g2, g3⟩ := spaces_split k h1
    refine ⟨l, qt, g1, by rw [g2]; exact h2, h3, by rw [g2]; exact h4, ?_, ?_, ?_⟩
    · rw [List.filter_eq_nil_iff.2 ?_]; rfl
      intro a ha
      obtain ⟨w, hw, rfl⟩ := List.mem_map.1 ha
      rw [g3 w hw]; simp
    · clear g1 g2
      induction l with
      | nil => exact Raw.nil
      | cons w l ih =>
        exact Raw.ws (g3 w (by simp)) rfl (ih fun y hy => g3 y (by simp [hy]))
    · intro _ ht
      have := h0 ht
      rw [this] at g2
      exact List.eq_nil_of_length_eq_zero g2
  | cons t ts ih =>
    intro u h hts hx
    obtain ⟨k, qt, h0, h1, h2, h3, h4⟩ := h
    obtain ⟨l, qx, g1, g2, g3, g4, g5, g6, -⟩ := ih h4 (fun y hy => hts y (by simp [hy])) hx
    obtain ⟨w, k1, k2, k3⟩ := spaces_split k h1
    have hidx : ∀ i, u (k + 1 + i) = (u.drop (k + 1)) i := fun _ => rfl
    refine ⟨w ++ qt :: l, qx, ?_, ?_, g3, ?_, ?_, ?_, by intro hn; cases hn⟩
    · intro i hi
      simp only [List.length_append, List.length_cons] at hi
      by_cases hlt : i < w.length
      · rw [List.getElem_append_left hlt]; exact k1 i hlt
      · rw [List.getElem_append_right (by omega)]
        by_cases heq : i = w.length
        · subst heq; simp [k2, h2]
        · obtain ⟨j, rfl⟩ : ∃ j, i = k + 1 + j := ⟨i - (k + 1), by omega⟩
          rw [hidx, g1 j (by omega)]
          congr 1
          have : k + 1 + j - w.length = j + 1 := by omega
          simp only [this, List.getElem_cons_succ]
    · rw [List.length_append, List.length_cons, k2, show k + (l.length + 1) = k + 1 + l.length by omega, hidx]
      exact g2
    · rw [List.length_append, List.length_cons, k2,
        show k + (l.length + 1) + 1 = k + 1 + (l.length + 1) by omega, ← Stream.drop_drop]
      exact g4
    · rw [List.map_append, List.filter_append, List.map_cons]
      have : (w.map (·.tok)).filter (fun t => !t.isWs) = [] := by
        rw [List.filter_eq_nil_iff]
        intro a ha
        obtain ⟨y, hy, rfl⟩ := List.mem_map.1 ha
        rw [k3 y hy]; simp
      rw [this, List.nil_append, List.filter_cons_of_pos (by rw [h3, hts t (by simp)]; rfl), g5, h3]
      rfl
    · have hr : Raw (qt :: l) (t :: ts) := by
        have := Raw.token (q := qt) (b := t.tight) g6
        rw [h3] at this; exact this
      clear k1
      cases w with
      | nil => exact hr
      | cons y w =>
        have hloose : looseHead (t :: ts) = true := by
          show (!t.tight) = true
          cases hb : t.tight with
          | false => rfl
          | true => have := h0 hb; rw [this] at k2; simp at k2
        generalize hv : y :: w = v at k3
        clear hv k2
        induction v with
        | nil => exact hr
        | cons z v ih => exact Raw.ws (k3 z (by simp)) hloose (ih fun y hy => k3 y (by simp [hy]))

theorem braceDepth_filter {d : Nat} {l : List Token} : braceDepth d (l.filter fun t => !t.isWs) = braceDepth d l := by
  induction l generalizing d with
  | nil => rfl
  | cons t l ih =>
    by_cases hw : t.isWs = true
    · rw [List.filter_cons_of_neg (by simp [hw])]
      have : braceDepth d (t :: l) = braceDepth d l := by
        cases t <;> first | (cases hw; done) | (cases d <;> rfl)
      rw [this, ih]
    · rw [List.filter_cons_of_pos (by simp [hw])]
      rw [show t :: (l.filter fun t => !t.isWs) = [t] ++ (l.filter fun t => !t.isWs) from rfl, show t :: l = [t] ++ l from rfl,
        braceDepth_append, braceDepth_append]
      cases braceDepth d [t] with
      | none => rfl
      | some d => exact ih

/-- An argument which is written in front of other tokens -/
theorem callArg_at {a : CallArg} {fol : List Tk} (ha : a.ok = true) (h : Comes u (a.tokens ++ fol)) :
    ∃ arg u', ArgAt u arg u' ∧ Comes u' fol ∧ Raw arg a.inner ∧ (arg = [] ↔ a.inner = []) ∧
      ∀ e, ArgFails cfg u e → ∃ i e', u i = .error e' := by
  cases a with
  | tok t =>
    unfold CallArg.ok at ha
    simp only [Bool.and_eq_true, Bool.not_eq_true'] at ha
    obtain ⟨hw, hn⟩ := ha
    obtain ⟨k, qt, h0, h1, h2, h3, h4⟩ := h
    have hfirst : FirstAt u NonWs k qt := by
      refine ⟨h2, by unfold NonWs; rw [h3]; exact hw, fun j hj => ?_⟩
      obtain ⟨w, g1, g2⟩ := h1 j hj
      exact ⟨w, g1, by unfold NonWs; rw [g2]; simp⟩
    have hne : qt.tok.unwrapMath ≠ .groupBegin ∧ qt.tok.unwrapMath ≠ .eoi ∧ Named qt.tok.unwrapMath = true := by
      rw [h3]
      show t.unwrapMath ≠ .groupBegin ∧ t.unwrapMath ≠ .eoi ∧ Named t.unwrapMath = true
      generalize t.unwrapMath = y at hn
      cases y <;> first | (cases hn; done) | exact ⟨(by intro h; cases h), (by intro h; cases h), rfl⟩
    refine ⟨_, _, .token hfirst hne.1 hne.2.1, h4, ?_, by simp [CallArg.inner], ?_⟩
    · have := Raw.token (q := qt.unwrapMath) (b := false) Raw.nil
      have h3' : qt.unwrapMath.tok = t.unwrapMath := congrArg Token.unwrapMath h3
      rw [h3'] at this
      exact this
    · intro e he
      cases he with
      | missing k1 k2 => obtain ⟨rfl, rfl⟩ := hfirst.unique k1; exact absurd k2 hne.2.1
      | unclosed k1 k2 _ => obtain ⟨rfl, rfl⟩ := hfirst.unique k1; exact absurd k2 hne.1
      | lexer k1 => exact ⟨_, _, k1⟩
      | unknown k1 k2 _ =>
        obtain ⟨rfl, rfl⟩ := hfirst.unique k1
        have := hne.2.2
        rw [k2] at this; cases this
      | unknownInside k1 k2 _ _ => obtain ⟨rfl, rfl⟩ := hfirst.unique k1; exact absurd k2 hne.1
  | braces xs =>
    unfold CallArg.ok at ha
    simp only [Bool.and_eq_true, List.all_eq_true, Bool.not_eq_true', beq_iff_eq] at ha
    obtain ⟨hx, hd⟩ := ha
    have h : Comes u (⟨.groupBegin, false⟩ :: (xs ++ [⟨.groupEnd, xs.isEmpty⟩] ++ fol)) := h
    obtain ⟨k, qt, h0, h1, h2, h3, h4⟩ := h
    rw [List.append_assoc] at h4
    have hfirst : FirstAt u NonWs k qt := by
      refine ⟨h2, by unfold NonWs; rw [h3]; rfl, fun j hj => ?_⟩
      obtain ⟨w, g1, g2⟩ := h1 j hj
      exact ⟨w, g1, by unfold NonWs; rw [g2]; simp⟩
    have hbegin : qt.tok.unwrapMath = .groupBegin := by rw [h3]; rfl
    obtain ⟨l, close, g1, g2, g3, g4, g5, g6, g7⟩ := comes_split h4 (fun t ht => (hx t ht).1.1) rfl
    have hmem : ∀ t ∈ l, t.tok.isEoi = false ∧ Named t.tok = true := by
      intro t ht
      by_cases hw : t.tok.isWs = true
      · generalize t.tok = y at hw
        cases y <;> first | (cases hw; done) | exact ⟨rfl, rfl⟩
      · have : t.tok ∈ (l.map (·.tok)).filter (fun t => !t.isWs) :=
          List.mem_filter.2 ⟨List.mem_map_of_mem ht, by simp [hw]⟩
        rw [g5] at this
        obtain ⟨y, hy, he⟩ := List.mem_map.1 this
        rw [← he]
        exact ⟨(hx y hy).1.2, (hx y hy).2⟩
    have hgroup : GroupAt true (u.drop (k + 1)) l close := by
      refine ⟨g1, g2, g3, ?_, fun t ht => (hmem t ht).1⟩
      show braceDepth 0 (l.map (·.tok)) = some 0
      rw [← braceDepth_filter, g5, hd]
    refine ⟨l, _, .group hfirst hbegin hgroup, ?_, g6, ?_, ?_⟩
    · rw [show k + 1 + (l.length + 1) = (k + 1) + (l.length + 1) from rfl, ← Stream.drop_drop]
      exact g4
    · show l = [] ↔ xs = []
      constructor
      · rintro rfl
        have : xs.map (·.tok) = [] := g5.symm
        simpa using this
      · rintro rfl
        exact g7 rfl rfl
    · intro e he
      cases he with
      | missing k1 k2 => obtain ⟨rfl, rfl⟩ := hfirst.unique k1; rw [hbegin] at k2; cases k2
      | unclosed k1 k2 k3 =>
        obtain ⟨rfl, rfl⟩ := hfirst.unique k1
        exact absurd ⟨_, _, hgroup⟩ (C39_unclosed_none k3)
      | lexer k1 => exact ⟨_, _, k1⟩
      | unknown k1 k2 _ => obtain ⟨rfl, rfl⟩ := hfirst.unique k1; rw [hbegin] at k2; cases k2
      | @unknownInside _ _ _ t' name k1 k2 k3 _ =>
        obtain ⟨rfl, rfl⟩ := hfirst.unique k1
        have h5 := (hmem _ (C39_unknown_none k3 hgroup)).2
        have h6 : t'.tok = .unresolvedCommand name := k3.isUnknown
        rw [h6] at h5; cases h5

/-- The tokens of an argument are read as they are written. -/
def ArgMatches : Option CallArg → Option (List QueuedTok) → Prop
  | some a, some arg => Raw arg a.inner ∧ (arg = [] ↔ a.inner = [])
  | none, none => True
  | _, _ => False

/-- The arguments of a call which are written in front of other tokens -/
theorem callArgs_at {args : List CallArg} {fol : List Tk} : ∀ {u : Stream}, (∀ a ∈ args, a.ok = true) →
    Comes u (args.flatMap CallArg.tokens ++ fol) →
    ∃ as u', ArgsAt args.length u as u' ∧ Comes u' fol ∧
      (∀ i : Nat, ArgMatches args[i]? as[i]?) ∧
      ∀ e, ArgsFail cfg args.length u e → ∃ i e', u i = .error e' := by
  induction args with
  | nil =>
    intro u _ h
    refine ⟨[], u, .nil, h, fun i => trivial, fun e he => ?_⟩
    cases he
  | cons a args ih =>
    intro u hok h
    rw [List.flatMap_cons, List.append_assoc] at h
    obtain ⟨arg, u1, h1, h2, h3, h4, h5⟩ := callArg_at (cfg := cfg) (hok a (by simp)) h
    obtain ⟨as, u2, g1, g2, g3, g4⟩ := ih (fun x hx => hok x (by simp [hx])) h2
    refine ⟨arg :: as, u2, .cons h1 g1, g2, fun i => ?_, fun e he => ?_⟩
    · cases i with
      | zero => exact ⟨h3, h4⟩
      | succ i => exact g3 i
    · cases he with
      | here he => exact h5 e he
      | later k1 k2 =>
        obtain ⟨rfl, rfl⟩ := argAt_unique h1 k1
        obtain ⟨i, e', hi⟩ := g4 e k2
        obtain ⟨j, hj⟩ := argAt_drop h1
        subst hj
        exact ⟨_, e', hi⟩

theorem argsAt_drop {n : Nat} {a v} (h : ArgsAt n u a v) : ∃ k, v = u.drop k := by
  induction h with
  | nil => exact ⟨0, by funext i; show _ = _; unfold Stream.drop; rw [Nat.zero_add]⟩
  | cons h1 _ ih =>
    obtain ⟨j, rfl⟩ := argAt_drop h1
    obtain ⟨k, rfl⟩ := ih
    exact ⟨_, Stream.drop_drop ..⟩

/-! ### The body -/

theorem expand_looseHead {args : List CallArg} {body : List Piece} : looseHead (expandTks args true body) = true := by
  induction body with
  | nil => rfl
  | cons p body ih =>
    cases p with
    | tok t =>
      unfold expandTks
      split
      · exact ih
      · rfl
    | param i =>
      unfold expandTks
      split
      · simp [looseHead]
      · rfl

theorem looseHead_append (h : looseHead ts = true) (h' : looseHead ts' = true) : looseHead (ts ++ ts') = true := by
  cases ts with
  | nil => exact h'
  | cons t ts => exact h

/-- The body of a macro, with the arguments in it, in front of other tokens -/
theorem body_comes {args : List CallArg} {as : List (List QueuedTok)} {known : Str → Option Token} {span : Span}
    (ha : ∀ i : Nat, ArgMatches args[i]? as[i]?)
    {fol : List Tk} (hf : looseHead fol = true) (hc : Comes u fol) : ∀ (body : List RecordedToken) (sp : Bool),
    Comes (u.push (body.flatMap (substituted known as span))) (expandTks args sp (body.map (pieceOf known)) ++ fol)
  | [], sp => by
    rw [List.flatMap_nil, push_nil]; exact hc
  | r :: body, sp => by
    rw [List.flatMap_cons, push_append, List.map_cons]
    have ih := body_comes (known := known) (span := span) ha hf hc body
    have tokCase : ∀ q : QueuedTok, Comes ((u.push (body.flatMap (substituted known as span))).push [q])
        (expandTks args sp (.tok q.tok :: body.map (pieceOf known)) ++ fol) := by
      intro q
      unfold expandTks
      split
      · rename_i hw
        exact comes_push_ws hw (looseHead_append expand_looseHead hf) (ih true)
      · exact comes_push_tok (ih false)
    have hparam : ∀ i, r = .token (.customCmdArg i) →
        Comes ((u.push (body.flatMap (substituted known as span))).push (substituted known as span r))
          (expandTks args sp (pieceOf known r :: body.map (pieceOf known)) ++ fol) := by
      rintro i rfl
      show Comes (Stream.push (argument as span i) _) (expandTks args sp (.param i :: _) ++ fol)
      have hi := ha i
      have hempty : Comes ((u.push (body.flatMap (substituted known as span))).push
          [⟨.groupBegin, span, none⟩, ⟨.groupEnd, span, none⟩])
          ((⟨.groupBegin, !sp⟩ :: ⟨.groupEnd, true⟩ :: expandTks args false (body.map (pieceOf known))) ++ fol) := by
        rw [push_cons]
        exact comes_push_tok (q := ⟨.groupBegin, span, none⟩) (comes_push_tok (q := ⟨.groupEnd, span, none⟩) (ih false))
      unfold argument expandTks
      cases hx : args[i]? with
      | none =>
        cases hy : as[i]? with
        | none => exact hempty
        | some arg => rw [hx, hy] at hi; exact hi.elim
      | some a =>
        cases hy : as[i]? with
        | none => rw [hx, hy] at hi; exact hi.elim
        | some arg =>
          rw [hx, hy] at hi
          obtain ⟨h1, h2⟩ := hi
          simp only [Option.map_some]
          cases arg with
          | nil => rw [h2.1 rfl]; exact hempty
          | cons q qs =>
            cases hin : a.inner with
            | nil => have := h2.2 hin; cases this
            | cons x xs =>
              dsimp only
              rw [hin] at h1
              have := h1 (looseHead_append expand_looseHead hf) (ih true)
              rw [List.cons_append] at this
              rw [List.cons_append, List.cons_append, List.append_assoc]
              exact comes_loose (b' := x.tight) (by intro hb; simp at hb; exact hb.1) this
    cases r with
    | commandName name =>
      have e1 : substituted known as span (.commandName name) = (match known name with
        | some t => [⟨t, ⟨0, 0⟩, none⟩]
        | none => [⟨.unresolvedCommand name, span, none⟩]) := rfl
      have e2 : pieceOf known (.commandName name) = .tok ((known name).getD (.unresolvedCommand name)) := rfl
      rw [e1, e2]
      cases known name with
      | none => exact tokCase ⟨.unresolvedCommand name, span, none⟩
      | some t => exact tokCase ⟨t, ⟨0, 0⟩, none⟩
    | token t =>
      cases t with
      | customCmdArg i => exact hparam i rfl
      | _ => exact tokCase ⟨_, ⟨0, 0⟩, none⟩

end Verif

import Verif.Lemmas.Ahead
import Verif.Lemmas.Stores
/-! What the definitions at the beginning of a snippet do. -/
namespace Verif
open Model Spec Lexer' TokenQueue

variable {cfg : ParserConfig} {s : PState} {outs rest : List LexerOutput} {c : Ctx} {st : CmdStores}

/-! ### The stores -/

theorem absorbLoop_plain {loc : CustomCmds} {fuel : Nat} {tokens : List RecordedToken} {i : Nat}
    (h : ∀ j t, i ≤ j → tokens[j]? = some t → ¬ RefersToLocal t) (hf : tokens.length ≤ fuel + i) :
    CustomCmds.absorbLoop loc fuel tokens i = some tokens := by
  induction fuel generalizing i with
  | zero =>
    unfold CustomCmds.absorbLoop
    rw [if_neg (by omega)]
  | succ fuel ih =>
    unfold CustomCmds.absorbLoop
    split
    · rename_i hi
      have hstep : CustomCmds.absorbStep loc tokens i = tokens := by
        unfold CustomCmds.absorbStep
        split
        · rename_i hx
          exact absurd trivial (h i _ (Nat.le_refl _) hx)
        · rfl
      rw [hstep]
      exact ih (fun j t hj => h j t (by omega)) (by omega)
    · rfl

theorem absorbFuel_plain {loc : CustomCmds} {body : List RecordedToken} (h : ∀ t ∈ body, ¬ RefersToLocal t) :
    CustomCmds.absorbFuel loc body = body.length := by
  unfold CustomCmds.absorbFuel
  generalize CustomCmds.absorbWeights [] loc.tokens = acc
  induction body with
  | nil => rfl
  | cons t body ih =>
    rw [List.map_cons, List.sum_cons, ih (fun x hx => h x (by simp [hx])), List.length_cons]
    have : CustomCmds.absorbWeight acc t = 1 := by
      unfold CustomCmds.absorbWeight
      split
      · rename_i n cl a b
        exact absurd trivial (h (.token (.customCmdRef .loc n cl a b)) (by simp))
      · rfl
    omega

/-- What is put into the stores -/
theorem define_eq {name : Str} {n : Nat} {body : List RecordedToken} {cls : Option Class} {replace g : Bool}
    (hg : g = true → ∀ t ∈ body, ¬ RefersToLocal t) (hr : replace = false → known cfg st name = none) :
    st.define name n body cls replace g = some (withDefinition st name n body cls g) := by
  have hnew : replace = false → st.document.map.contains name = false ∧ st.loc.map.contains name = false := by
    intro h
    have hk := hr h
    unfold known CmdStores.resolveCommand at hk
    split at hk
    · cases hk
    · rename_i hx
      rw [Option.or_eq_none_iff, Option.or_eq_none_iff] at hx
      obtain ⟨⟨h1, h2⟩, -⟩ := hx
      unfold CustomCmds.get at h1 h2
      unfold StrMap.contains
      constructor
      · cases hm : StrMap.get st.document.map name with
        | none => rfl
        | some d => rw [hm] at h2; cases h2
      · cases hm : StrMap.get st.loc.map name with
        | none => rfl
        | some d => rw [hm] at h1; cases h1
  unfold CmdStores.define withDefinition
  cases g with
  | false =>
    simp only [Bool.false_eq_true, if_false]
    cases replace with
    | true =>
      simp only [if_true, CustomCmds.insertOrReplace, CustomCmds.register, List.length_append]
    | false =>
      simp only [Bool.false_eq_true, if_false, CustomCmds.insert, (hnew rfl).2, CustomCmds.insertOrReplace,
        CustomCmds.register, List.length_append, if_true]
  | true =>
    have hab : st.document.absorb st.loc body = ({ st.document with tokens := st.document.tokens ++ body },
        st.document.tokens.length, st.document.tokens.length + body.length) := by
      unfold CustomCmds.absorb
      simp only
      rw [absorbLoop_plain, Option.getD_some, List.length_append]
      · intro j t hj ht
        rw [List.getElem?_append_right hj] at ht
        exact hg rfl t (List.mem_of_getElem? ht)
      · rw [absorbFuel_plain (hg rfl), List.length_append]; omega
    simp only [if_true]
    cases replace with
    | true =>
      simp only [if_true, CustomCmds.insertOrReplaceAndCopyLocal, hab, CustomCmds.register, CustomCmds.remove]
    | false =>
      simp only [Bool.false_eq_true, if_false, CustomCmds.insertAndCopyLocal, (hnew rfl).1,
        CustomCmds.insertOrReplaceAndCopyLocal, hab, CustomCmds.register, if_true, CustomCmds.remove]

/-- Where a new definition is stored -/
def newRef (st : CmdStores) (n : Nat) (body : List RecordedToken) (cls : Option Class) (g : Bool) : Token :=
  let src : CmdSource := if g then .document else .loc
  let at' := (st.store src).tokens.length
  .customCmdRef src n cls at' (at' + body.length)

/-- What names mean after a definition -/
theorem known_withDefinition {name : Str} {n : Nat} {body : List RecordedToken} {cls : Option Class} {g : Bool}
    (x : Str) : known cfg (withDefinition st name n body cls g) x =
      if x = name then some (newRef st n body cls g) else known cfg st x := by
  unfold known CmdStores.resolveCommand withDefinition CustomCmds.get newRef CmdStores.store
  cases g with
  | false =>
    simp only [Bool.false_eq_true, if_false, get_insert]
    by_cases h : x = name
    · simp only [h, if_true, Option.some_or]
    · simp only [h, if_false]
  | true =>
    simp only [if_true, get_insert]
    by_cases h : x = name
    · subst h
      simp only [if_true]
      have : StrMap.get (StrMap.remove st.loc.map x) x = none := lookup_filter_self _ _
      rw [this]
      simp
    · simp only [h, if_false]
      have : StrMap.get (StrMap.remove st.loc.map name) x = StrMap.get st.loc.map x := lookup_filter_ne _ _ _ h
      rw [this]

theorem store_withDefinition {name : Str} {n : Nat} {body : List RecordedToken} {cls : Option Class} {g : Bool} :
    ((withDefinition st name n body cls g).store (if g then .document else .loc)).get name
      (if g then .document else .loc) = some (newRef st n body cls g) := by
  unfold withDefinition CustomCmds.get newRef CmdStores.store
  cases g <;> simp [get_insert]

/-! ### The queue -/

theorem findNonWs_map {f : QueuedTok → QueuedTok} {l : List QueuedTok} (h : ∀ t ∈ l, (f t).tok.isWs = t.tok.isWs) :
    findNonWs (l.map f) = findNonWs l := by
  induction l with
  | nil => rfl
  | cons t l ih =>
    simp only [List.map_cons, findNonWs]
    rw [h t (by simp), ih (fun x hx => h x (by simp [hx]))]

theorem resolveLexed_inj {o o' : LexerOutput} (h : resolveLexed cfg st o = resolveLexed cfg st o') : o = o' := by
  cases o with
  | token t =>
    cases o' with
    | token t' =>
      unfold resolveLexed TokSpan.queued at h
      obtain ⟨a, b⟩ := t
      obtain ⟨a', b'⟩ := t'
      simp only [QueuedTok.mk.injEq, and_true] at h
      rw [h.1, h.2]
    | commandName n sp => exact absurd (congrArg QueuedTok.name h) (by simp [resolveLexed, TokSpan.queued])
  | commandName n sp =>
    cases o' with
    | token t' => exact absurd (congrArg QueuedTok.name h) (by simp [resolveLexed, TokSpan.queued])
    | commandName n' sp' =>
      unfold resolveLexed at h
      simp only [QueuedTok.mk.injEq, Option.some.injEq] at h
      rw [h.2.1, h.2.2]

theorem upcoming_map {q : TokenQueue} {st : CmdStores} {f : QueuedTok → QueuedTok} {o : LexerOutput} {i : Nat}
    (h : upcoming cfg q i = .ok (resolveLexed cfg q.stores o))
    (hf : f (resolveLexed cfg q.stores o) = resolveLexed cfg st o) :
    upcoming cfg { q with stores := st, queue := q.queue.map f } i = .ok (resolveLexed cfg st o) := by
  unfold upcoming at h ⊢
  simp only [List.getElem?_map, List.length_map]
  cases hq : q.queue[i]? with
  | some t =>
    rw [hq] at h
    cases h
    simp only [Option.map_some, hf]
  | none =>
    rw [hq] at h
    simp only [Option.map_none]
    dsimp only at h
    cases hn : nthLexed (i - q.queue.length) q.lexer with
    | error e => rw [hn] at h; cases h
    | ok o' =>
      rw [hn] at h
      have : resolveLexed cfg q.stores o' = resolveLexed cfg q.stores o := Except.ok.inj h
      cases resolveLexed_inj this
      rfl

/-- The tokens in the queue after a definition which replaces an existing one -/
theorem redefined_fresh {name : Str} {n : Nat} {body : List RecordedToken} {cls : Option Class} {g : Bool}
    (o : LexerOutput) :
    (if (resolveLexed cfg st o).name = some name then (resolveLexed cfg st o).withToken (newRef st n body cls g)
      else resolveLexed cfg st o) = resolveLexed cfg (withDefinition st name n body cls g) o := by
  cases o with
  | token t => rfl
  | commandName x sp =>
    unfold resolveLexed
    have hk := known_withDefinition (cfg := cfg) (st := st) (name := name) (n := n) (body := body) (cls := cls) (g := g) x
    unfold known at hk
    simp only [Option.some.injEq]
    rw [hk]
    by_cases h : x = name
    · simp only [h, if_true, QueuedTok.withToken, Option.getD_some]
    · simp only [h, if_false]

/-- What `resolveBufferedUnknown` does with a token -/
def resolveAgain (cfg : ParserConfig) (st : CmdStores) (t : QueuedTok) : QueuedTok :=
  match t.tok with
  | .unresolvedCommand name =>
    match st.resolveCommand cfg.builtin name with
    | some tok => t.withToken tok
    | none => t
  | _ => t

/-- The tokens in the queue after the definition of a new name -/
theorem defined_fresh {name : Str} {n : Nat} {body : List RecordedToken} {cls : Option Class} {g : Bool}
    (hn : known cfg st name = none) (o : LexerOutput) (ho : RawOut o) :
    resolveAgain cfg (withDefinition st name n body cls g) (resolveLexed cfg st o) =
      resolveLexed cfg (withDefinition st name n body cls g) o := by
  cases o with
  | token t =>
    obtain ⟨t, sp⟩ := t
    have ho : rawB t = true := ho
    unfold resolveAgain resolveLexed TokSpan.queued
    cases t <;> first | rfl | cases ho
  | commandName x sp =>
    have hk := known_withDefinition (cfg := cfg) (st := st) (name := name) (n := n) (body := body) (cls := cls) (g := g) x
    unfold resolveAgain resolveLexed
    unfold known at hk hn
    dsimp only
    rw [hk]
    cases hx : st.resolveCommand cfg.builtin x with
    | none =>
      simp only [Option.getD_none]
      rw [hk]
      by_cases h : x = name
      · simp only [h, if_true, Option.getD_some]; rfl
      · simp only [h, if_false, hx, Option.getD_none]
    | some t =>
      have hne : x ≠ name := by
        rintro rfl
        rw [hn] at hx; cases hx
      rw [if_neg hne, Option.getD_some]
      have ht := resolve_tame hx
      cases t <;> first | rfl | cases ht

theorem isWs_resolve {st' : CmdStores} (o : LexerOutput) :
    (resolveLexed cfg st' o).tok.isWs = (resolveLexed cfg st o).tok.isWs := by
  cases h : isWs o with
  | true => rw [show (resolveLexed cfg st' o).tok = _ from isWs_tok h, show (resolveLexed cfg st o).tok = _ from isWs_tok h]
  | false =>
    have h1 : (resolveLexed cfg st' o).tok.isWs = false := notWs_tok h
    have h2 : (resolveLexed cfg st o).tok.isWs = false := notWs_tok h
    rw [h1, h2]

/-- After the queue has been brought up to date with a new definition -/
theorem Ahead.updated {st' : CmdStores} {f : QueuedTok → QueuedTok} (h : Ahead cfg s outs c)
    (hf : ∀ o, RawOut o → f (resolveLexed cfg c.stores o) = resolveLexed cfg st' o) :
    Ahead cfg { s with q := { s.q with stores := st', queue := s.q.queue.map f } } outs { c with stores := st' } := by
  have hs := h.stores
  refine ⟨⟨?_, h.inv.more⟩, fun i => ?_, ?_⟩
  · show findNonWs (s.q.queue.map f) = some s.q.nextNonWs
    rw [findNonWs_map, h.inv.next]
    intro t ht
    obtain ⟨i, hi, rfl⟩ := List.getElem_of_mem ht
    obtain ⟨o, g1, g2, -⟩ := h.all i
    rw [upcoming_head (List.getElem?_eq_getElem hi)] at g2
    rw [Except.ok.inj g2, hs, hf o g1]
    exact isWs_resolve o
  · obtain ⟨o, g1, g2, g3⟩ := h.all i
    exact ⟨o, g1, upcoming_map g2 (by rw [hs]; exact hf o g1), g3⟩
  · rw [← h.ctx]; rfl

/-- A definition -/
theorem Ahead.define {name : Str} {n : Nat} {body : List RecordedToken} {cls : Option Class} {replace g : Bool}
    (h : Ahead cfg s outs c) (hg : (g || cfg.globalGroup) = true → ∀ t ∈ body, ¬ RefersToLocal t)
    (hr : replace = false → known cfg c.stores name = none) : ∃ q',
      TokenQueue.define name n body cls replace g cfg s.q = .ok true q' ∧
      Ahead cfg { s with q := q' } outs
        { c with stores := withDefinition c.stores name n body cls (g || cfg.globalGroup) } := by
  unfold TokenQueue.define
  simp only
  rw [h.stores, define_eq hg hr]
  simp only
  cases replace with
  | true =>
    simp only [if_true]
    rw [store_withDefinition]
    exact ⟨_, rfl, h.updated (f := fun t => if t.name = some name then t.withToken _ else t) fun o _ => redefined_fresh o⟩
  | false =>
    simp only [Bool.false_eq_true, if_false]
    exact ⟨_, rfl, h.updated (f := resolveAgain cfg _) fun o ho => defined_fresh (hr rfl) o ho⟩

/-! ### The parser -/

/-- With these things to come, the computation returns `a`, and then `outs'` are to come. -/
def RunOk {α : Type} (cfg : ParserConfig) (m : P α) (outs : List LexerOutput) (c : Ctx) (a : α)
    (outs' : List LexerOutput) (c' : Ctx) : Prop :=
  ∀ s, Ahead cfg s outs c → ∃ s', m cfg s = .ok a s' ∧ Ahead cfg s' outs' c'

/-- With these things to come, the computation fails with this kind of error. -/
def RunErr {α : Type} (cfg : ParserConfig) (m : P α) (outs : List LexerOutput) (c : Ctx) (k : LatexErrKind) : Prop :=
  ∀ s, Ahead cfg s outs c → ∃ e s', m cfg s = .err e s' ∧ e.kind = k

variable {α β : Type} {m : P α} {f : α → P β} {a : α} {b : β} {outs' outs'' : List LexerOutput} {c' c'' : Ctx}
  {k : LatexErrKind}

theorem RunOk.bind (h : RunOk cfg m outs c a outs' c') (h' : RunOk cfg (f a) outs' c' b outs'' c'') :
    RunOk cfg (m >>= f) outs c b outs'' c'' := by
  intro s hs
  obtain ⟨s1, h1, h2⟩ := h s hs
  obtain ⟨s2, h3, h4⟩ := h' s1 h2
  refine ⟨s2, ?_, h4⟩
  show St.bind m f cfg s = _
  unfold St.bind
  rw [h1]; exact h3

theorem RunOk.bind_err (h : RunOk cfg m outs c a outs' c') (h' : RunErr cfg (f a) outs' c' k) :
    RunErr cfg (m >>= f) outs c k := by
  intro s hs
  obtain ⟨s1, h1, h2⟩ := h s hs
  obtain ⟨e, s2, h3, h4⟩ := h' s1 h2
  refine ⟨e, s2, ?_, h4⟩
  show St.bind m f cfg s = _
  unfold St.bind
  rw [h1]; exact h3

theorem RunErr.bind (h : RunErr cfg m outs c k) : RunErr cfg (m >>= f) outs c k := by
  intro s hs
  obtain ⟨e, s2, h3, h4⟩ := h s hs
  refine ⟨e, s2, ?_, h4⟩
  show St.bind m f cfg s = _
  unfold St.bind
  rw [h3]

theorem RunOk.pure : RunOk cfg (Pure.pure a : P α) outs c a outs c := fun s hs => ⟨s, rfl, hs⟩

theorem RunErr.fail {sp : Span} : RunErr cfg (P.fail sp k : P α) outs c k := fun s _ => ⟨_, s, rfl, rfl⟩

theorem RunOk.peek {w : List LexerOutput} {o : LexerOutput} (hw : Blanks w) (ho : isWs o = false) :
    RunOk cfg P.peek (w ++ o :: rest) c (resolveLexed cfg c.stores o).ts (w ++ o :: rest) c := by
  intro s hs
  refine ⟨s, ?_, hs⟩
  show Res.ok s.q.peek s = _
  rw [hs.peek hw ho]

theorem RunOk.next {w : List LexerOutput} {o : LexerOutput} (hw : Blanks w) (ho : isWs o = false)
    (hn : Named (tokOf cfg c.stores o).unwrapMath = true) :
    RunOk cfg P.next (w ++ o :: rest) c (resolveLexed cfg c.stores o).unwrapMath.ts rest c := by
  intro s hs
  obtain ⟨q', h1, h2⟩ := hs.next hw ho hn
  exact ⟨_, h1, h2⟩

theorem RunOk.liftQ {m : Q α} (h : ∀ s, Ahead cfg s outs c → ∃ q', m cfg s.q = .ok a q' ∧
    Ahead cfg { s with q := q' } outs' c') : RunOk cfg (Model.liftQ m) outs c a outs' c' := by
  intro s hs
  obtain ⟨q', h1, h2⟩ := h s hs
  refine ⟨_, ?_, h2⟩
  unfold Model.liftQ St.zoom
  rw [h1]

theorem RunOk.ofExcept : RunOk cfg (St.ofExcept (.ok a) : P α) outs c a outs c := fun s hs => ⟨s, rfl, hs⟩

theorem RunErr.ofExcept {e : LatexError} (h : e.kind = k) : RunErr cfg (St.ofExcept (.error e) : P α) outs c k :=
  fun s _ => ⟨e, s, rfl, h⟩

theorem named_of {t u : Token} (h : t = u) (hu : Named u.unwrapMath = true) : Named t.unwrapMath = true := by rw [h]; exact hu

theorem tok_next {o : LexerOutput} {t : Token} (h : tokOf cfg st o = t) :
    (resolveLexed cfg st o).unwrapMath.ts.tok = t.unwrapMath := by rw [← h]; rfl

/-- An opening brace around the name -/
theorem run_nameBrace_no {w : List LexerOutput} {o : LexerOutput} (hw : Blanks w) (ho : isWs o = false)
    (hb : tokOf cfg c.stores o ≠ .groupBegin) : RunOk cfg nameBrace (w ++ o :: rest) c false (w ++ o :: rest) c := by
  unfold nameBrace
  refine RunOk.bind (RunOk.peek hw ho) ?_
  have : (resolveLexed cfg c.stores o).ts.tok.isGroupBegin = false := by
    show (tokOf cfg c.stores o).isGroupBegin = false
    cases h : tokOf cfg c.stores o <;> first | rfl | exact absurd h hb
  rw [if_neg (by rw [this]; simp)]
  exact RunOk.pure

theorem run_nameBrace_yes {w : List LexerOutput} {o : LexerOutput} (hw : Blanks w)
    (hb : tokOf cfg c.stores o = .groupBegin) : RunOk cfg nameBrace (w ++ o :: rest) c true rest c := by
  unfold nameBrace
  have ho := isWs_of_tok hb rfl
  refine RunOk.bind (RunOk.peek hw ho) ?_
  have : (resolveLexed cfg c.stores o).ts.tok.isGroupBegin = true := by
    show (tokOf cfg c.stores o).isGroupBegin = true
    rw [hb]; rfl
  rw [if_pos this]
  exact RunOk.bind (RunOk.next hw ho (named_of hb rfl)) RunOk.pure

/-- The name as it is read -/
theorem run_namePart {w : List LexerOutput} {name : Str} {sp : Span} (hw : Blanks w) :
    RunOk cfg (Model.liftQ nextAllowingUnresolved) (w ++ .commandName name sp :: rest) c
      (resolveLexed cfg c.stores (.commandName name sp)).unwrapMath rest c :=
  RunOk.liftQ fun _ hs => hs.nextUnresolved hw rfl

/-- The name to define, or that it may not be defined -/
def targetOf (mode : DefineMode) (name : Str) (k : Option Token) : Except LatexErrKind (Option (Str × Bool)) :=
  match mode, k with
  | .new, some _ => .error .commandAlreadyDefined
  | .renew, none => .error .commandNotDefined
  | .provide, some _ => .ok none
  | .renew, some _ => .ok (some (name, true))
  | _, none => .ok (some (name, false))

theorem definitionTarget_eq {mode : DefineMode} {name : Str} {sp : Span} :
    match targetOf mode name (known cfg st name) with
    | .ok r => definitionTarget mode (resolveLexed cfg st (.commandName name sp)).unwrapMath = .ok r
    | .error k => ∃ e, definitionTarget mode (resolveLexed cfg st (.commandName name sp)).unwrapMath = .error e ∧
        e.kind = k := by
  unfold definitionTarget resolveLexed QueuedTok.unwrapMath
  cases hk : known cfg st name with
  | none =>
    unfold known at hk
    simp only [hk, Option.getD_none]
    cases mode <;> first | rfl | exact ⟨_, rfl, rfl⟩
  | some t =>
    have ht := resolve_tame hk
    unfold known at hk
    simp only [hk, Option.getD_some]
    have hu : inertB t.unwrapMath = true ∨ t.unwrapMath = t ∧ ∀ n, t ≠ .unresolvedCommand n := by
      cases t <;> first
        | (refine Or.inr ⟨rfl, ?_⟩; intro n h; cases h; done)
        | cases ht
        | skip
      rename_i t _
      cases t <;> first | (left; exact ht) | cases ht
    have hgo : ∀ {γ : Type} (x : Str → γ) (y : γ), (match t.unwrapMath with | .unresolvedCommand n => x n | _ => y) = y := by
      intro γ x y
      rcases hu with hu | ⟨h1, h2⟩
      · generalize t.unwrapMath = u at hu ⊢
        cases u <;> first | rfl | cases hu
      · rw [h1]
        clear hk ht h1
        cases t <;> first | rfl | exact absurd rfl (h2 _)
    cases mode <;> first | exact hgo _ _ | exact ⟨_, hgo _ _, rfl⟩

/-- The number of arguments -/
theorem run_arity {n : Nat} {a b body : List LexerOutput} (ha : ArityPart cfg c.stores n a)
    (hb : BodyPart cfg c.stores body b) : RunOk cfg parseNumArgs (a ++ (b ++ rest)) c n (b ++ rest) c := by
  unfold parseNumArgs
  cases ha with
  | none =>
    obtain ⟨w, o, r, h1, h2, h3, h4⟩ : ∃ w o r, b ++ rest = w ++ o :: r ∧ Blanks w ∧ isWs o = false ∧
        (tokOf cfg c.stores o).isSquareOpen = false := by
      cases hb with
      | @group w _ l hw hl =>
        obtain ⟨hlb, -, -, -⟩ := hl
        rename_i lb rb
        exact ⟨w, lb, body ++ [rb] ++ rest, by simp, hw, isWs_of_tok hlb rfl, by rw [hlb]; rfl⟩
      | @single w o hw ho _ hq _ _ =>
        refine ⟨w, o, rest, by simp, hw, ho, ?_⟩
        cases h : tokOf cfg c.stores o <;> first | rfl | exact absurd h hq
    rw [List.nil_append, h1]
    refine RunOk.bind (RunOk.peek h2 h3) ?_
    rw [if_neg (by rw [show (resolveLexed cfg c.stores o).ts.tok.isSquareOpen = false from h4]; simp)]
    exact RunOk.pure
  | @some w lb w' d ch w'' rb hw hlb hw' hd hdig hw'' hrb =>
    have e : w ++ lb :: (w' ++ d :: (w'' ++ [rb])) ++ (b ++ rest) =
      w ++ lb :: (w' ++ d :: (w'' ++ rb :: (b ++ rest))) := by simp
    rw [e]
    refine RunOk.bind (RunOk.peek hw (isWs_of_tok hlb rfl)) ?_
    rw [if_pos (by show (tokOf cfg c.stores lb).isSquareOpen = true; rw [hlb]; rfl)]
    refine RunOk.bind (RunOk.next hw (isWs_of_tok hlb rfl) (named_of hlb rfl)) ?_
    refine RunOk.bind (RunOk.next hw' (isWs_of_tok hd rfl) (named_of hd rfl)) ?_
    rw [tok_next hd]
    refine RunOk.bind (RunOk.next hw'' (isWs_of_tok hrb rfl) (named_of hrb rfl)) ?_
    rw [tok_next hrb, if_pos (show Token.squareBracketClose.unwrapMath.isSquareClose = true from rfl), hdig]
    exact RunOk.pure

/-- The tokens of a body as they are read, and the things which are recorded -/
def ReadAs (cfg : ParserConfig) (st : CmdStores) (t : QueuedTok) (o : LexerOutput) : Prop :=
  (∀ n, match recordOne cfg st n o with
    | .ok r => mapRecordedToken n t = .ok r
    | .error k => ∃ e, mapRecordedToken n t = .error e ∧ e.kind = k) ∧
  recordedClass t = (tokOf cfg st o).cls

theorem cls_recorded (t : QueuedTok) : recordedClass t = t.tok.cls := by
  obtain ⟨t, sp, n⟩ := t
  cases t <;> rfl

theorem readAs_token {t : TokSpan} (h : inertB t.tok = true ∨ rawB t.tok = true) :
    ReadAs cfg st t.queued (.token t) := by
  refine ⟨fun n => ?_, cls_recorded _⟩
  obtain ⟨t, sp⟩ := t
  cases t with
  | customCmdArgInput i =>
    unfold recordOne mapRecordedToken TokSpan.queued
    dsimp only
    by_cases hi : i < n
    · rw [if_pos hi]
      dsimp only
      rw [if_neg (by omega)]
    · rw [if_neg hi]
      dsimp only
      rw [if_pos (by omega)]
      exact ⟨_, rfl, rfl⟩
  | _ => first | rfl | (rcases h with h | h <;> cases h)

theorem readAs_name {name : Str} {sp : Span} {u : Token} (h : u = tokOf cfg st (.commandName name sp) ∨
    u = (tokOf cfg st (.commandName name sp)).unwrapMath) :
    ReadAs cfg st ⟨u, sp, some name⟩ (.commandName name sp) := by
  refine ⟨fun n => ?_, ?_⟩
  · unfold recordOne mapRecordedToken
    unfold tokOf resolveLexed at h
    dsimp only at h ⊢
    cases hk : known cfg st name with
    | none =>
      unfold known at hk
      rw [hk] at h
      rcases h with rfl | rfl <;> rfl
    | some t =>
      have ht := resolve_tame hk
      unfold known at hk
      rw [hk, Option.getD_some] at h
      cases t with
      | mathOrTextMode t ch =>
        rcases h with rfl | rfl
        · rfl
        · dsimp only [Token.unwrapMath]
          cases u <;> first | rfl | cases ht
      | _ =>
        first
          | (rcases h with rfl | rfl <;> rfl)
          | (rcases h with rfl | rfl <;> exact ⟨_, rfl, rfl⟩)
          | cases ht
  · rw [cls_recorded]
    rcases h with rfl | rfl
    · rfl
    · show Token.cls (Token.unwrapMath _) = _
      unfold tokOf resolveLexed
      dsimp only
      cases hk : st.resolveCommand cfg.builtin name with
      | none => rfl
      | some t =>
        have ht := resolve_tame hk
        rw [Option.getD_some]
        cases t with
        | mathOrTextMode t ch => cases t <;> first | rfl | cases ht
        | _ => rfl

theorem mapM_recordedAs {n : Nat} {l : List (QueuedTok × LexerOutput)} (h : ∀ p ∈ l, ReadAs cfg st p.1 p.2) :
    match recordAll cfg st n (l.map (·.2)) with
    | .ok r => (l.map (·.1)).mapM (mapRecordedToken n) = .ok r
    | .error k => ∃ e, (l.map (·.1)).mapM (mapRecordedToken n) = .error e ∧ e.kind = k := by
  unfold recordAll
  induction l with
  | nil => rfl
  | cons p l ih =>
    have h1 := (h p (by simp)).1 n
    have h2 := ih fun x hx => h x (by simp [hx])
    rw [List.map_cons, List.map_cons, List.mapM_cons, List.mapM_cons]
    cases hr : recordOne cfg st n p.2 with
    | error k =>
      rw [hr] at h1
      obtain ⟨e, h3, h4⟩ := h1
      exact ⟨e, by rw [h3]; rfl, h4⟩
    | ok r =>
      rw [hr] at h1
      dsimp only at h1
      cases hrs : (l.map (·.2)).mapM (recordOne cfg st n) with
      | error k =>
        rw [hrs] at h2
        obtain ⟨e, h3, h4⟩ := h2
        exact ⟨e, by rw [h1, h3]; rfl, h4⟩
      | ok rs =>
        rw [hrs] at h2
        dsimp only at h2
        show _ = _
        rw [h1, h2]; rfl

theorem class_recorded {l : List (QueuedTok × LexerOutput)} (h : ∀ p ∈ l, ReadAs cfg st p.1 p.2) :
    (l.map (·.1)).findSome? recordedClass = bodyClass cfg st (l.map (·.2)) := by
  unfold bodyClass
  induction l with
  | nil => rfl
  | cons p l ih =>
    rw [List.map_cons, List.map_cons, List.findSome?_cons, List.findSome?_cons, (h p (by simp)).2,
      ih fun x hx => h x (by simp [hx])]

theorem recorded_eq {n : Nat} {l : List (QueuedTok × LexerOutput)} (h : ∀ p ∈ l, ReadAs cfg st p.1 p.2) :
    match recordAll cfg st n (l.map (·.2)) with
    | .ok r => mapRecordedTokens (l.map (·.1)) n = .ok (r, bodyClass cfg st (l.map (·.2)))
    | .error k => ∃ e, mapRecordedTokens (l.map (·.1)) n = .error e ∧ e.kind = k := by
  have h1 := mapM_recordedAs (n := n) h
  unfold mapRecordedTokens
  rw [class_recorded h]
  cases hr : recordAll cfg st n (l.map (·.2)) with
  | ok r => rw [hr] at h1; dsimp only at h1 ⊢; rw [h1]
  | error k =>
    rw [hr] at h1
    obtain ⟨e, h2, h3⟩ := h1
    exact ⟨e, by rw [h2], h3⟩

/-- The tokens of a group -/
theorem group_readAs {body : List LexerOutput} (h : ∀ o ∈ body, RawOut o) :
    ∀ p ∈ body.map fun o => (resolveLexed cfg st o, o), ReadAs cfg st p.1 p.2 := by
  intro p hp
  obtain ⟨o, ho, rfl⟩ := List.mem_map.1 hp
  cases o with
  | token t => exact readAs_token (Or.inr (h _ ho))
  | commandName name sp => exact readAs_name (Or.inl rfl)

theorem single_readAs {o : LexerOutput} (h : RawOut o) :
    ReadAs cfg st (resolveLexed cfg st o).unwrapMath (inMathMode o) := by
  cases o with
  | token t =>
    obtain ⟨t, sp⟩ := t
    have h : rawB t = true := h
    refine readAs_token (t := ⟨t.unwrapMath, sp⟩) (Or.inl ?_)
    cases t with
    | mathOrTextMode t ch => cases t <;> first | exact h | cases h
    | _ => exact h
  | commandName name sp => exact readAs_name (Or.inr rfl)

theorem named_unwrap {o : LexerOutput} (hr : RawOut o) (hn : Named (tokOf cfg st o) = true) :
    Named (tokOf cfg st o).unwrapMath = true := by
  cases o with
  | token t =>
    obtain ⟨t, sp⟩ := t
    have hr : rawB t = true := hr
    show Named t.unwrapMath = true
    cases t with
    | mathOrTextMode t ch => cases t <;> first | rfl | cases hr
    | _ => first | rfl | cases hr
  | commandName name sp =>
    unfold tokOf resolveLexed at hn ⊢
    dsimp only at hn ⊢
    cases hk : st.resolveCommand cfg.builtin name with
    | none => rw [hk] at hn; cases hn
    | some t =>
      have ht := resolve_tame hk
      rw [Option.getD_some]
      cases t with
      | mathOrTextMode t ch => cases t <;> first | rfl | cases ht
      | _ => first | rfl | cases ht

theorem notEoi_unwrap {o : LexerOutput} (hr : RawOut o) (hn : tokOf cfg st o ≠ .eoi) :
    (tokOf cfg st o).unwrapMath.isEoi = false := by
  cases o with
  | token t =>
    obtain ⟨t, sp⟩ := t
    have hr : rawB t = true := hr
    have hn : t ≠ .eoi := hn
    show t.unwrapMath.isEoi = false
    cases t with
    | mathOrTextMode t ch => cases t <;> first | rfl | cases hr
    | _ => first | rfl | exact absurd rfl hn
  | commandName name sp =>
    unfold tokOf resolveLexed
    dsimp only
    cases hk : st.resolveCommand cfg.builtin name with
    | none => rfl
    | some t =>
      have ht := resolve_tame hk
      rw [Option.getD_some]
      cases t with
      | mathOrTextMode t ch => cases t <;> first | rfl | cases ht
      | _ => first | rfl | cases ht

/-- What a definition leads to -/
def RunDef (cfg : ParserConfig) (m : P Unit) (outs : List LexerOutput) (c : Ctx) (rest : List LexerOutput)
    (r : Except LatexErrKind CmdStores) : Prop :=
  match r with
  | .ok st' => RunOk cfg m outs c () rest { c with stores := st' }
  | .error k => RunErr cfg m outs c k

theorem RunOk.bind_def {f : α → P Unit} {r : Except LatexErrKind CmdStores} (h : RunOk cfg m outs c a outs' c)
    (h' : RunDef cfg (f a) outs' c rest r) : RunDef cfg (m >>= f) outs c rest r := by
  cases r with
  | ok st' => exact RunOk.bind h h'
  | error k => exact RunOk.bind_err h h'

/-- The body -/
theorem run_body {body b : List LexerOutput} (hb : BodyPart cfg c.stores body b) (hraw : ∀ o ∈ b, RawOut o) :
    ∃ l : List (QueuedTok × LexerOutput), l.map (·.2) = body ∧ (∀ p ∈ l, ReadAs cfg c.stores p.1 p.2) ∧
      RunOk cfg parseDefinitionBody (b ++ rest) c (l.map (·.1)) rest c := by
  cases hb with
  | @group w _ l hw hl =>
    refine ⟨body.map fun o => (resolveLexed cfg c.stores o, o), by rw [List.map_map]; exact List.map_id _,
      group_readAs fun o ho => ?_, ?_⟩
    · cases hl
      exact hraw o (by simp [ho])
    · have hl' := hl
      obtain ⟨hlb, -, -, -⟩ := hl'
      rename_i lb rb
      unfold parseDefinitionBody
      have e1 : w ++ lb :: (body ++ [rb]) ++ rest = w ++ lb :: (body ++ [rb] ++ rest) := by simp
      have e2 : w ++ lb :: (body ++ [rb]) ++ rest = w ++ ((lb :: (body ++ [rb])) ++ rest) := by simp
      rw [e1]
      refine RunOk.bind (RunOk.peek hw (isWs_of_tok hlb rfl)) ?_
      rw [← e1, e2, if_pos (by show (tokOf cfg c.stores lb).isGroupBegin = true; rw [hlb]; rfl)]
      have hm : (body.map fun o => (resolveLexed cfg c.stores o, o)).map (·.1) = body.map (resolveLexed cfg c.stores) := by
        simp
      rw [hm]
      intro s hs
      obtain ⟨q1, rb', h1, h2, h3⟩ := hs.group hw hl
      obtain ⟨q2, h4, h5⟩ := Ahead.next (w := []) h2 (by intro o ho; cases ho) (isWs_of_tok h3 rfl) (named_of h3 rfl)
      refine ⟨_, ?_, h5⟩
      have h1' : Model.liftQ recordMacroBody cfg s = .ok (body.map (resolveLexed cfg c.stores)) { s with q := q1 } := by
        unfold Model.liftQ St.zoom
        rw [h1]
      simp only [bind, St.bind, h1', h4]
      rfl
  | @single w o hw ho hg hq he hn =>
    have hraw' := hraw o (by simp)
    refine ⟨[((resolveLexed cfg c.stores o).unwrapMath, inMathMode o)], rfl, ?_, ?_⟩
    · intro p hp
      rw [List.mem_singleton.1 hp]
      exact single_readAs hraw'
    · unfold parseDefinitionBody
      have e1 : w ++ [o] ++ rest = w ++ o :: rest := by simp
      rw [e1]
      refine RunOk.bind (RunOk.peek hw ho) ?_
      have h1 : (resolveLexed cfg c.stores o).ts.tok.isGroupBegin = false := by
        show (tokOf cfg c.stores o).isGroupBegin = false
        cases h : tokOf cfg c.stores o <;> first | rfl | exact absurd h hg
      rw [if_neg (by rw [h1]; simp)]
      have hnamed := named_unwrap hraw' hn
      refine RunOk.bind (RunOk.liftQ fun s hs => hs.nextKeeping hw ho hnamed) ?_
      have h2 : (resolveLexed cfg c.stores o).unwrapMath.tok.isEoi = false := by
        show (tokOf cfg c.stores o).unwrapMath.isEoi = false
        exact notEoi_unwrap hraw' he
      rw [if_neg (by rw [h2]; simp)]
      exact RunOk.pure

/-- The end of a definition by `\newcommand` -/
def defineRest (mode : DefineMode) (nameTok : QueuedTok) (braced : Bool) : P Unit := do
  let targetOf ← St.ofExcept (definitionTarget mode nameTok)
  nameBraceEnd braced
  let numArgs ← parseNumArgs
  let toks ← parseDefinitionBody
  let (body, cls) ← St.ofExcept (TokenQueue.mapRecordedTokens toks numArgs)
  match targetOf with
  | none => return ()
  | some (name, replace) =>
    let ok ← Model.liftQ (TokenQueue.define name numArgs body cls replace false)
    if ok then return () else P.fail nameTok.span .internal

theorem recordOne_notLocal {n : Nat} {o : LexerOutput} {r : RecordedToken} (ho : RawOut o)
    (h : recordOne cfg st n o = .ok r) : ¬ RefersToLocal r := by
  cases o with
  | token t =>
    obtain ⟨t, sp⟩ := t
    have ho : rawB t = true := ho
    cases t with
    | customCmdArgInput i =>
      change (if i < n then Except.ok (RecordedToken.token (.customCmdArg i)) else _) = _ at h
      split at h
      · cases h; exact fun h => h
      · cases h
    | _ => first | (cases h; exact fun h => h; done) | cases ho
  | commandName name sp =>
    unfold recordOne at h
    split at h
    · split at h <;> cases h
      exact fun h => h
    all_goals (rename_i heq; cases heq)

theorem recordAll_notLocal {n : Nat} {body : List LexerOutput} {bs : List RecordedToken} (ho : ∀ o ∈ body, RawOut o)
    (h : recordAll cfg st n body = .ok bs) : ∀ t ∈ bs, ¬ RefersToLocal t := by
  unfold recordAll at h
  induction body generalizing bs with
  | nil => cases h; intro t ht; cases ht
  | cons o body ih =>
    rw [List.mapM_cons] at h
    cases h1 : recordOne cfg st n o with
    | error e => rw [h1] at h; cases h
    | ok r =>
      cases h2 : body.mapM (recordOne cfg st n) with
      | error e => rw [h1, h2] at h; cases h
      | ok rs =>
        rw [h1, h2] at h
        cases h
        intro t ht
        rcases List.mem_cons.1 ht with rfl | ht
        · exact recordOne_notLocal (ho o (by simp)) h1
        · exact ih (fun x hx => ho x (by simp [hx])) h2 t ht

theorem _root_.Verif.Spec.BodyPart.raw {body b : List LexerOutput} (h : BodyPart cfg st body b) (hr : ∀ o ∈ b, RawOut o) :
    ∀ o ∈ body, RawOut o := by
  cases h with
  | group hw hl =>
    cases hl
    intro o ho
    exact hr o (by simp [ho])
  | @single w o hw ho _ _ _ _ =>
    intro x hx
    rw [List.mem_singleton.1 hx]
    have h1 := hr o (by simp)
    cases o with
    | token t =>
      obtain ⟨t, sp⟩ := t
      have h1 : rawB t = true := h1
      show rawB t.unwrapMath = true
      cases t with
      | mathOrTextMode t ch => cases t <;> first | exact h1 | cases h1
      | _ => exact h1
    | commandName name sp => trivial

theorem run_defineRest {mode : DefineMode} {name : Str} {sp : Span} {n : Nat} {a b body : List LexerOutput} {braced : Bool}
    (hbr : RunOk cfg (nameBraceEnd braced) outs c () (a ++ (b ++ rest)) c)
    (ha : ArityPart cfg c.stores n a) (hb : BodyPart cfg c.stores body b) (hraw : ∀ o ∈ b, RawOut o) :
    RunDef cfg (defineRest mode (resolveLexed cfg c.stores (.commandName name sp)).unwrapMath braced) outs c rest
      ((⟨some mode, name, n, recordAll cfg c.stores n body, bodyClass cfg c.stores body, cfg.globalGroup⟩ : Defn).effect
        cfg c.stores) := by
  unfold defineRest
  have ht := definitionTarget_eq (cfg := cfg) (st := c.stores) (mode := mode) (name := name) (sp := sp)
  cases htg : targetOf mode name (known cfg c.stores name) with
  | error k =>
    rw [htg] at ht
    obtain ⟨e, h1, h2⟩ := ht
    have he : (⟨some mode, name, n, recordAll cfg c.stores n body, bodyClass cfg c.stores body, cfg.globalGroup⟩ : Defn).effect
        cfg c.stores = .error k := by
      unfold targetOf at htg
      unfold Defn.effect
      dsimp only
      split at htg <;> cases htg <;> simp_all
    rw [he, h1]
    exact RunErr.bind (RunErr.ofExcept h2)
  | ok tg =>
    rw [htg] at ht
    dsimp only at ht
    rw [ht]
    refine RunOk.bind_def RunOk.ofExcept ?_
    refine RunOk.bind_def hbr ?_
    refine RunOk.bind_def (run_arity ha hb) ?_
    obtain ⟨l, hl1, hl2, hl3⟩ := run_body (rest := rest) hb hraw
    refine RunOk.bind_def hl3 ?_
    have hrec := recorded_eq (n := n) hl2
    rw [hl1] at hrec
    cases hr : recordAll cfg c.stores n body with
    | error k =>
      rw [hr] at hrec
      obtain ⟨e, h1, h2⟩ := hrec
      have he : (⟨some mode, name, n, .error k, bodyClass cfg c.stores body, cfg.globalGroup⟩ : Defn).effect
          cfg c.stores = .error k := by
        unfold targetOf at htg
        unfold Defn.effect
        dsimp only
        split at htg <;> cases htg <;> (split <;> simp_all [Except.map])
      rw [he, h1]
      exact RunErr.bind (RunErr.ofExcept h2)
    | ok bs =>
      rw [hr] at hrec
      dsimp only at hrec
      rw [hrec]
      refine RunOk.bind_def RunOk.ofExcept ?_
      dsimp only
      cases tg with
      | none =>
        have he : (⟨some mode, name, n, .ok bs, bodyClass cfg c.stores body, cfg.globalGroup⟩ : Defn).effect
            cfg c.stores = .ok c.stores := by
          unfold targetOf at htg
          unfold Defn.effect
          dsimp only
          split at htg <;> cases htg <;> simp_all [Except.map]
        rw [he]
        exact RunOk.pure
      | some p =>
        obtain ⟨nm, replace⟩ := p
        have hnm : nm = name ∧ (replace = false → known cfg c.stores name = none) := by
          unfold targetOf at htg
          split at htg <;> cases htg <;> simp_all
        obtain ⟨rfl, hnew⟩ := hnm
        have he : (⟨some mode, nm, n, .ok bs, bodyClass cfg c.stores body, cfg.globalGroup⟩ : Defn).effect
            cfg c.stores = .ok (withDefinition c.stores nm n bs (bodyClass cfg c.stores body) cfg.globalGroup) := by
          unfold targetOf at htg
          unfold Defn.effect
          dsimp only
          split at htg <;> cases htg <;> simp_all [Except.map]
        rw [he]
        show RunOk _ _ _ _ _ _ _
        refine RunOk.bind (RunOk.liftQ fun s hs => hs.define (g := false) (fun _ => recordAll_notLocal (hb.raw hraw) hr) hnew) ?_
        rw [if_pos rfl]
        exact RunOk.pure

theorem run_defineCommand {mode : DefineMode} {name : Str} {n : Nat} {p a b body : List LexerOutput}
    (hp : NamePart cfg c.stores name p)
    (ha : ArityPart cfg c.stores n a) (hb : BodyPart cfg c.stores body b) (hraw : ∀ o ∈ b, RawOut o) :
    RunDef cfg (defineCommand mode) (p ++ (a ++ (b ++ rest))) c rest
      ((⟨some mode, name, n, recordAll cfg c.stores n body, bodyClass cfg c.stores body, cfg.globalGroup⟩ : Defn).effect
        cfg c.stores) := by
  have hd : defineCommand mode = (nameBrace >>= fun braced => Model.liftQ nextAllowingUnresolved >>= fun nameTok =>
    defineRest mode nameTok braced) := rfl
  rw [hd]
  cases hp with
  | @plain w _ sp hw hb' =>
    have e : w ++ [.commandName name sp] ++ (a ++ (b ++ rest)) = w ++ .commandName name sp :: (a ++ (b ++ rest)) := by simp
    rw [e]
    refine RunOk.bind_def (run_nameBrace_no hw rfl hb') ?_
    refine RunOk.bind_def (run_namePart hw) ?_
    exact run_defineRest RunOk.pure ha hb hraw
  | @braced w lb w' _ sp w'' rb hw hlb hw' hw'' hrb =>
    have e : w ++ lb :: (w' ++ .commandName name sp :: (w'' ++ [rb])) ++ (a ++ (b ++ rest)) =
      w ++ lb :: (w' ++ .commandName name sp :: (w'' ++ rb :: (a ++ (b ++ rest)))) := by simp
    rw [e]
    refine RunOk.bind_def (run_nameBrace_yes hw hlb) ?_
    refine RunOk.bind_def (run_namePart hw') ?_
    refine run_defineRest ?_ ha hb hraw
    unfold nameBraceEnd
    rw [if_pos rfl]
    refine RunOk.bind (RunOk.next hw'' (isWs_of_tok hrb rfl) (named_of hrb rfl)) ?_
    rw [tok_next hrb]
    exact RunOk.pure

/-! ### `\def`, `\let`, `\global` -/

theorem run_readName {w : List LexerOutput} {name : Str} {sp : Span} (hw : Blanks w) :
    RunOk cfg (Model.liftQ readDefinitionName) (w ++ .commandName name sp :: rest) c name rest c := by
  refine RunOk.liftQ fun s hs => ?_
  obtain ⟨q', h1, h2⟩ := hs.nextUnresolved hw rfl
  refine ⟨q', ?_, h2⟩
  unfold readDefinitionName
  simp only [bind, St.bind, h1]
  unfold resolveLexed QueuedTok.unwrapMath
  dsimp only
  cases hk : c.stores.resolveCommand cfg.builtin name with
  | none => rfl
  | some t =>
    have ht := resolve_tame hk
    rw [Option.getD_some]
    cases t with
    | mathOrTextMode t ch => cases t <;> first | rfl | cases ht
    | _ => first | rfl | cases ht

theorem run_peekAny {o : LexerOutput} :
    RunOk cfg P.peekAny (o :: rest) c (resolveLexed cfg c.stores o).ts (o :: rest) c := by
  intro s hs
  refine ⟨s, ?_, hs⟩
  show Res.ok s.q.peekAny s = _
  unfold TokenQueue.peekAny
  rw [hs.peekAny]

theorem cnt_pos {s : PState} {o : LexerOutput} (h : Ahead cfg s (o :: rest) c) (he : tokOf cfg c.stores o ≠ .eoi) :
    0 < cnt s.q := by
  obtain ⟨q', -, -, h3⟩ := h.nextAnyUnknown
  have hone : one (tokOf cfg c.stores o) = 1 := by
    unfold one
    cases hx : tokOf cfg c.stores o <;> first | rfl | exact absurd hx he
  omega

/-- Skipping whitespace -/
theorem run_skipWs {w : List LexerOutput} {o : LexerOutput} (hw : Blanks w) (ho : isWs o = false) :
    ∀ {s : PState} {fuel : Nat}, cnt s.q < fuel → Ahead cfg s (w ++ o :: rest) c →
      ∃ q', skipWs fuel cfg s = .ok () { s with q := q' } ∧ Ahead cfg { s with q := q' } (o :: rest) c := by
  induction w with
  | nil =>
    intro s fuel hf hs
    obtain ⟨fuel, rfl⟩ : ∃ k, fuel = k + 1 := ⟨fuel - 1, by omega⟩
    refine ⟨s.q, ?_, hs⟩
    unfold skipWs
    have hp : P.peekAny cfg s = .ok (resolveLexed cfg c.stores o).ts s := by
      show Res.ok s.q.peekAny s = _
      unfold TokenQueue.peekAny
      rw [Ahead.peekAny (rest := rest) hs]
    simp only [bind, St.bind, hp]
    have : (resolveLexed cfg c.stores o).ts.tok.isWs = false := notWs_tok ho
    rw [if_neg (by rw [this]; simp)]
    rfl
  | cons x w ih =>
    intro s fuel hf hs
    obtain ⟨fuel, rfl⟩ : ∃ k, fuel = k + 1 := ⟨fuel - 1, by omega⟩
    have hx : tokOf cfg c.stores x = .whitespace := isWs_tok (hw x (by simp))
    obtain ⟨q1, h1, h2, h3⟩ := Ahead.nextAny (rest := w ++ o :: rest) hs (by rw [hx]; rfl)
    rw [hx] at h3
    have : one .whitespace = 1 := rfl
    obtain ⟨q2, h4, h5⟩ := ih (fun y hy => hw y (by simp [hy])) (s := { s with q := q1 }) (fuel := fuel)
      (by show cnt q1 < fuel; omega) h2
    refine ⟨q2, ?_, h5⟩
    unfold skipWs
    have hp : P.peekAny cfg s = .ok (resolveLexed cfg c.stores x).ts s := by
      show Res.ok s.q.peekAny s = _
      unfold TokenQueue.peekAny
      rw [Ahead.peekAny (rest := w ++ o :: rest) hs]
    simp only [bind, St.bind, hp]
    have hw' : (resolveLexed cfg c.stores x).ts.tok.isWs = true := by
      show (tokOf cfg c.stores x).isWs = true
      rw [hx]; rfl
    rw [if_pos hw']
    show St.bind _ _ _ _ = _
    unfold St.bind
    rw [h1]
    exact h4

/-- The parameters -/
theorem run_params {lb : LexerOutput} (hlb : tokOf cfg c.stores lb = .groupBegin) (n : Nat) :
    ∀ {ps : List LexerOutput} {i : Nat} {s : PState} {fuel : Nat},
      ps.map (tokOf cfg c.stores) = (List.range' i n).map .customCmdArgInput → cnt s.q < fuel →
      Ahead cfg s (ps ++ lb :: rest) c →
      ∃ q', paramLoop fuel i cfg s = .ok (i + n) { s with q := q' } ∧ Ahead cfg { s with q := q' } (lb :: rest) c := by
  induction n with
  | zero =>
    intro ps i s fuel hps hf hs
    obtain ⟨fuel, rfl⟩ : ∃ k, fuel = k + 1 := ⟨fuel - 1, by omega⟩
    have : ps = [] := by
      cases ps with
      | nil => rfl
      | cons p ps => cases hps
    subst this
    refine ⟨s.q, ?_, hs⟩
    unfold paramLoop
    have hp : P.peekAny cfg s = .ok (resolveLexed cfg c.stores lb).ts s := by
      show Res.ok s.q.peekAny s = _
      unfold TokenQueue.peekAny
      rw [Ahead.peekAny (rest := rest) hs]
    simp only [bind, St.bind, hp]
    have : (resolveLexed cfg c.stores lb).ts.tok = .groupBegin := hlb
    rw [this]
    rfl
  | succ n ih =>
    intro ps i s fuel hps hf hs
    obtain ⟨fuel, rfl⟩ : ∃ k, fuel = k + 1 := ⟨fuel - 1, by omega⟩
    cases ps with
    | nil => rw [List.range'_succ] at hps; cases hps
    | cons p ps =>
      rw [List.range'_succ, List.map_cons, List.map_cons, List.cons.injEq] at hps
      obtain ⟨hp, hps⟩ := hps
      obtain ⟨q1, h1, h2, h3⟩ := Ahead.nextAny (rest := ps ++ lb :: rest) hs (by rw [hp]; rfl)
      rw [hp] at h3
      have : one (.customCmdArgInput i) = 1 := rfl
      obtain ⟨q2, h4, h5⟩ := ih (i := i + 1) (s := { s with q := q1 }) (fuel := fuel) hps
        (by show cnt q1 < fuel; omega) h2
      refine ⟨q2, ?_, h5⟩
      unfold paramLoop
      have hpk : P.peekAny cfg s = .ok (resolveLexed cfg c.stores p).ts s := by
        show Res.ok s.q.peekAny s = _
        unfold TokenQueue.peekAny
        rw [Ahead.peekAny (rest := ps ++ lb :: rest) hs]
      simp only [bind, St.bind, hpk]
      have ht : (resolveLexed cfg c.stores p).ts.tok = .customCmdArgInput i := hp
      rw [ht]
      dsimp only
      rw [if_neg (by simp)]
      show St.bind _ _ _ _ = _
      unfold St.bind
      rw [h1]
      rw [show i + (n + 1) = i + 1 + n by omega]
      exact h4

/-- The end of a definition by `\def` -/
def defRest (isGlobal : Bool) (name : Str) : P Unit := do
  skipWs (← P.loopFuel)
  let numArgs ← paramLoop (← P.loopFuel) 0
  let toks ← Model.liftQ TokenQueue.recordMacroBody
  let _ ← P.next
  let (body, cls) ← St.ofExcept (TokenQueue.mapRecordedTokens toks numArgs)
  let _ ← Model.liftQ (TokenQueue.define name numArgs body cls true isGlobal)

theorem RunOk.loopFuel {f : Nat → P β} (h : ∀ n, (∀ s, Ahead cfg s outs c → cnt s.q < n → ∃ s', f n cfg s = .ok b s' ∧
    Ahead cfg s' outs' c')) : RunOk cfg (P.loopFuel >>= f) outs c b outs' c' := by
  intro s hs
  exact h s.q.loopFuel s hs (by have := cnt_loopFuel s.q; omega)

theorem run_defRest {g : Bool} {name : Str} {w ps b body : List LexerOutput} {n : Nat} (hw : Blanks w)
    (hps : ParamsPart cfg c.stores n ps) (hb : GroupPart cfg c.stores body b) (hraw : ∀ o ∈ b, RawOut o) :
    RunDef cfg (defRest g name) (w ++ (ps ++ (b ++ rest))) c rest
      ((⟨none, name, n, recordAll cfg c.stores n body, bodyClass cfg c.stores body, g || cfg.globalGroup⟩ : Defn).effect
        cfg c.stores) := by
  have hbody : ∀ o ∈ body, RawOut o := by
    cases hb
    intro o ho
    exact hraw o (by simp [ho])
  have hb' := hb
  obtain ⟨hlb, hrb, -, -⟩ := hb'
  rename_i lb rb
  unfold defRest
  have e : w ++ (ps ++ (lb :: (body ++ [rb]) ++ rest)) = w ++ (ps ++ lb :: (body ++ [rb] ++ rest)) := by simp
  have hskip : RunOk cfg (P.loopFuel >>= skipWs) (w ++ (ps ++ (lb :: (body ++ [rb]) ++ rest))) c ()
      (ps ++ lb :: (body ++ [rb] ++ rest)) c := by
    rw [e]
    obtain ⟨x, xs, hx, hxw⟩ : ∃ x xs, ps ++ lb :: (body ++ [rb] ++ rest) = x :: xs ∧ isWs x = false := by
      cases ps with
      | nil => exact ⟨lb, _, rfl, isWs_of_tok hlb rfl⟩
      | cons p ps =>
        refine ⟨p, _, rfl, ?_⟩
        unfold ParamsPart at hps
        cases n with
        | zero => cases hps
        | succ n =>
          rw [List.range_succ_eq_map, List.map_cons, List.map_cons, List.cons.injEq] at hps
          exact isWs_of_tok hps.1 rfl
    rw [hx]
    refine RunOk.loopFuel fun n s hs hf => ?_
    obtain ⟨q', h1, h2⟩ := run_skipWs hw hxw hf hs
    exact ⟨_, h1, h2⟩
  have hparams : RunOk cfg (P.loopFuel >>= fun f => paramLoop f 0) (ps ++ lb :: (body ++ [rb] ++ rest)) c n
      (lb :: (body ++ [rb] ++ rest)) c := by
    refine RunOk.loopFuel fun f s hs hf => ?_
    obtain ⟨q', h1, h2⟩ := run_params hlb n (i := 0) (by rw [← List.range_eq_range']; exact hps) hf hs
    rw [Nat.zero_add] at h1
    exact ⟨_, h1, h2⟩
  have hassoc : ∀ (m1 : P Nat) (m2 : Nat → P Unit) (f : P Unit), (m1 >>= fun x => (m2 x >>= fun _ => f)) =
      ((m1 >>= m2) >>= fun _ => f) := by
    intro m1 m2 f
    funext cfg s
    simp only [bind, St.bind]
    cases m1 cfg s <;> rfl
  have hassoc' : ∀ (m1 : P Nat) (m2 : Nat → P Nat) (f : Nat → P Unit), (m1 >>= fun x => (m2 x >>= f)) =
      ((m1 >>= m2) >>= f) := by
    intro m1 m2 f
    funext cfg s
    simp only [bind, St.bind]
    cases m1 cfg s <;> rfl
  rw [hassoc]
  refine RunOk.bind_def hskip ?_
  rw [hassoc']
  refine RunOk.bind_def hparams ?_
  have hgrp : ∀ {f : List QueuedTok → P Unit} {r}, RunDef cfg (f (body.map (resolveLexed cfg c.stores))) rest c rest r →
      RunDef cfg (Model.liftQ recordMacroBody >>= fun t => P.next >>= fun _ => f t) (lb :: (body ++ [rb] ++ rest)) c rest r := by
    intro f r hr
    have h1 : RunOk cfg (Model.liftQ recordMacroBody >>= fun t => P.next >>= fun _ => (pure t : P (List QueuedTok)))
        (lb :: (body ++ [rb] ++ rest)) c (body.map (resolveLexed cfg c.stores)) rest c := by
      intro s hs
      obtain ⟨q1, rb', h1, h2, h3⟩ := Ahead.group (w := []) hs (by intro o ho; cases ho) hb
      obtain ⟨q2, h4, h5⟩ := Ahead.next (w := []) h2 (by intro o ho; cases ho) (isWs_of_tok h3 rfl) (named_of h3 rfl)
      refine ⟨_, ?_, h5⟩
      have h1' : Model.liftQ recordMacroBody cfg s = .ok (body.map (resolveLexed cfg c.stores)) { s with q := q1 } := by
        unfold Model.liftQ St.zoom
        rw [h1]
      simp only [bind, St.bind, h1', h4]
      rfl
    have h2 := RunOk.bind_def h1 hr
    have h3 : (Model.liftQ recordMacroBody >>= fun t => P.next >>= fun _ => f t) =
      ((Model.liftQ recordMacroBody >>= fun t => P.next >>= fun _ => (pure t : P (List QueuedTok))) >>= f) := by
      funext cfg s
      simp only [bind, St.bind]
      cases Model.liftQ recordMacroBody cfg s with
      | ok t s' =>
        dsimp only
        cases P.next cfg s' <;> rfl
      | _ => rfl
    rw [h3]
    exact h2
  refine hgrp ?_
  have hrec := recorded_eq (n := n) (group_readAs (cfg := cfg) (st := c.stores) hbody)
  have e1 : (body.map fun o => (resolveLexed cfg c.stores o, o)).map (·.2) = body := by
    rw [List.map_map]; exact List.map_id _
  have e2 : (body.map fun o => (resolveLexed cfg c.stores o, o)).map (·.1) = body.map (resolveLexed cfg c.stores) := by
    rw [List.map_map]; rfl
  rw [e1, e2] at hrec
  unfold Defn.effect
  dsimp only
  cases hr : recordAll cfg c.stores n body with
  | error k =>
    rw [hr] at hrec
    obtain ⟨e, h1, h2⟩ := hrec
    rw [h1]
    exact RunErr.bind (RunErr.ofExcept h2)
  | ok bs =>
    rw [hr] at hrec
    dsimp only at hrec
    rw [hrec]
    refine RunOk.bind_def RunOk.ofExcept ?_
    show RunOk _ _ _ _ _ _ _
    dsimp only
    refine RunOk.bind (RunOk.liftQ fun s hs => hs.define (g := g) (fun _ => recordAll_notLocal hbody hr)
      (by intro h; cases h)) ?_
    exact RunOk.pure

theorem run_defCommand {g : Bool} {name : Str} {sp : Span} {w' w ps b body : List LexerOutput} {n : Nat}
    (hw' : Blanks w') (hw : Blanks w) (hps : ParamsPart cfg c.stores n ps) (hb : GroupPart cfg c.stores body b)
    (hraw : ∀ o ∈ b, RawOut o) :
    RunDef cfg (defCommand g) (w' ++ .commandName name sp :: (w ++ (ps ++ (b ++ rest)))) c rest
      ((⟨none, name, n, recordAll cfg c.stores n body, bodyClass cfg c.stores body, g || cfg.globalGroup⟩ : Defn).effect
        cfg c.stores) :=
  RunOk.bind_def (run_readName hw') (run_defRest hw hps hb hraw)

theorem unwrap_unwrap {o : LexerOutput} (hr : RawOut o) :
    (tokOf cfg st o).unwrapMath.unwrapMath = (tokOf cfg st o).unwrapMath := by
  cases o with
  | token t =>
    obtain ⟨t, sp⟩ := t
    have hr : rawB t = true := hr
    show t.unwrapMath.unwrapMath = t.unwrapMath
    cases t with
    | mathOrTextMode t ch => cases t <;> first | rfl | cases hr
    | _ => rfl
  | commandName name sp =>
    unfold tokOf resolveLexed
    dsimp only
    cases hk : st.resolveCommand cfg.builtin name with
    | none => rfl
    | some t =>
      have ht := resolve_tame hk
      rw [Option.getD_some]
      cases t with
      | mathOrTextMode t ch => cases t <;> first | rfl | cases ht
      | _ => first | rfl | cases ht

theorem isEquals_iff {t : Token} : t.isEquals = true ↔ t.unwrapMath = .relation Sym.EQUALS_SIGN := by
  unfold Token.isEquals
  generalize t.unwrapMath = u
  constructor
  · intro h
    cases u <;> first | (cases h; done) | skip
    rw [of_decide_eq_true h]
  · rintro rfl
    rfl

theorem notWs_of_unwrap {o : LexerOutput} {t : Token} (h : (tokOf cfg st o).unwrapMath = t) (ht : t ≠ .whitespace) :
    isWs o = false := by
  cases hw : isWs o with
  | false => rfl
  | true => rw [isWs_tok hw] at h; exact absurd h.symm ht

theorem run_equals {e w : List LexerOutput} {o : LexerOutput} (he : EqualsPart cfg c.stores e) (hw : Blanks w)
    (ho : isWs o = false) (hne : e = [] → (tokOf cfg c.stores o).unwrapMath ≠ .relation Sym.EQUALS_SIGN) :
    RunOk cfg skipEquals (e ++ (w ++ o :: rest)) c () (w ++ o :: rest) c := by
  unfold skipEquals
  cases he with
  | none =>
    refine RunOk.bind (RunOk.peek hw ho) ?_
    have : (resolveLexed cfg c.stores o).ts.tok.isEquals = false := by
      rw [Bool.eq_false_iff]
      exact fun h => hne rfl (isEquals_iff.1 h)
    rw [if_neg (by rw [this]; simp)]
    exact RunOk.pure
  | @some w' x hw' hx =>
    have hxw : isWs x = false := notWs_of_unwrap hx (by intro h; cases h)
    rw [List.append_assoc, List.cons_append, List.nil_append]
    refine RunOk.bind (RunOk.peek hw' hxw) ?_
    rw [if_pos (isEquals_iff.2 (show (resolveLexed cfg c.stores x).ts.tok.unwrapMath = _ from hx))]
    refine RunOk.bind (RunOk.next hw' hxw (by rw [hx]; rfl)) ?_
    exact RunOk.pure

theorem run_letCommand {g : Bool} {name : Str} {sp : Span} {w' e w : List LexerOutput} {o : LexerOutput}
    (hw' : Blanks w') (he : EqualsPart cfg c.stores e) (hw : Blanks w) (ho : isWs o = false)
    (heoi : tokOf cfg c.stores o ≠ .eoi) (hn : Named (tokOf cfg c.stores o) = true)
    (hne : e = [] → (tokOf cfg c.stores o).unwrapMath ≠ .relation Sym.EQUALS_SIGN) (hraw : RawOut o)
    (hloc : (g || cfg.globalGroup) = true → NotLocalRef (tokOf cfg c.stores o).unwrapMath) :
    RunDef cfg (letCommand g) (w' ++ .commandName name sp :: (e ++ (w ++ (o :: rest)))) c rest
      ((⟨none, name, 0, .ok [.token (tokOf cfg c.stores o).unwrapMath], (tokOf cfg c.stores o).cls,
        g || cfg.globalGroup⟩ : Defn).effect cfg c.stores) := by
  unfold letCommand
  refine RunOk.bind_def (run_readName hw') ?_
  refine RunOk.bind_def (run_equals he hw ho hne) ?_
  have hn' : Named (tokOf cfg c.stores o).unwrapMath = true := named_unwrap hraw hn
  refine RunOk.bind_def (RunOk.next hw ho hn') ?_
  show RunOk _ _ _ _ _ _ _
  have he' : (tokOf cfg c.stores o).unwrapMath.isEoi = false := notEoi_unwrap hraw heoi
  have hcls : (tokOf cfg c.stores o).unwrapMath.cls = (tokOf cfg c.stores o).cls := by
    unfold Token.cls
    rw [unwrap_unwrap hraw]
  have key : RunOk cfg (Model.liftQ (TokenQueue.define name 0 [.token (tokOf cfg c.stores o).unwrapMath]
      (tokOf cfg c.stores o).unwrapMath.cls true g) >>= fun _ => (Pure.pure () : P Unit)) rest c () rest
      { c with
        stores := withDefinition c.stores name 0 [.token (tokOf cfg c.stores o).unwrapMath]
          (tokOf cfg c.stores o).cls (g || cfg.globalGroup) } := by
    rw [hcls]
    refine RunOk.bind (RunOk.liftQ fun s hs => hs.define (g := g) ?_ (by intro h; cases h)) RunOk.pure
    intro hg t ht
    rw [List.mem_singleton.1 ht]
    have := hloc hg
    revert this
    generalize (tokOf cfg c.stores o).unwrapMath = u
    intro hu hu'
    cases u with
    | customCmdRef s => cases s <;> first | exact hu' | exact hu
    | _ => exact hu'
  have htok : (resolveLexed cfg c.stores o).unwrapMath.ts.tok = (tokOf cfg c.stores o).unwrapMath := rfl
  rw [htok]
  revert key hn' he'
  generalize (tokOf cfg c.stores o).unwrapMath = u
  intro hn' he' key
  cases u <;> first | (cases hn'; done) | (cases he'; done) | exact key

theorem Ahead.prefix {s : PState} {a b : List LexerOutput} (h : Ahead cfg s (a ++ b) c) : Ahead cfg s a c := by
  refine ⟨h.inv, fun i => ?_, h.ctx⟩
  obtain ⟨o, h1, h2, h3⟩ := h.all i
  refine ⟨o, h1, h2, fun o' ho' => h3 o' ?_⟩
  rw [List.getElem?_append_left (List.getElem?_eq_some_iff.1 ho').1]
  exact ho'

theorem Ahead.count {s : PState} {outs : List LexerOutput} (h : Ahead cfg s outs c)
    (he : ∀ o ∈ outs, tokOf cfg c.stores o ≠ .eoi) : outs.length ≤ cnt s.q := by
  induction outs generalizing s with
  | nil => exact Nat.zero_le _
  | cons o outs ih =>
    obtain ⟨q', -, h2, h3⟩ := h.nextAnyUnknown
    have hone : one (tokOf cfg c.stores o) = 1 := by
      have := he o (by simp)
      unfold one
      revert this
      generalize tokOf cfg c.stores o = t
      intro ht
      cases t <;> first | rfl | exact absurd rfl ht
    have := ih h2 (fun x hx => he x (by simp [hx]))
    have : outs.length ≤ cnt q' := this
    rw [List.length_cons]
    omega

theorem GlobalPart.notEoi {gl : List LexerOutput} (h : GlobalPart cfg st gl) : ∀ o ∈ gl, tokOf cfg st o ≠ .eoi := by
  induction h with
  | nil => intro o ho; cases ho
  | cons hw ho _ ih =>
    intro x hx
    rcases List.mem_append.1 hx with hx | hx
    · rw [isWs_tok (hw x hx)]; intro h; cases h
    · rcases List.mem_cons.1 hx with rfl | hx
      · rw [ho]; intro h; cases h
      · exact ih x hx

/-- `\global`, and what it stands in front of -/
theorem run_globalPrefix {gl w tl : List LexerOutput} {o : LexerOutput} {r : Except LatexErrKind CmdStores}
    (hgl : GlobalPart cfg c.stores gl) (hw : Blanks w)
    (h : (tokOf cfg c.stores o = .letCmd ∧ RunDef cfg (letCommand true) tl c rest r) ∨
      (∃ g, tokOf cfg c.stores o = .defCmd g) ∧ RunDef cfg (defCommand true) tl c rest r) :
    ∀ {fuel : Nat}, gl.length < fuel → RunDef cfg (globalPrefix fuel) (gl ++ (w ++ o :: tl)) c rest r := by
  induction hgl with
  | nil =>
    intro fuel hf
    obtain ⟨fuel, rfl⟩ : ∃ k, fuel = k + 1 := ⟨fuel - 1, by omega⟩
    unfold globalPrefix
    rcases h with ⟨h1, h2⟩ | ⟨⟨g, h1⟩, h2⟩
    · refine RunOk.bind_def (RunOk.next hw (isWs_of_tok h1 rfl) (named_of h1 rfl)) ?_
      rw [tok_next h1]
      exact h2
    · refine RunOk.bind_def (RunOk.next hw (isWs_of_tok h1 rfl) (named_of h1 rfl)) ?_
      rw [tok_next h1]
      exact h2
  | @cons w' x l hw' hx _ ih =>
    intro fuel hf
    obtain ⟨fuel, rfl⟩ : ∃ k, fuel = k + 1 := ⟨fuel - 1, by omega⟩
    unfold globalPrefix
    rw [List.append_assoc, List.cons_append]
    refine RunOk.bind_def (RunOk.next hw' (isWs_of_tok hx rfl) (named_of hx rfl)) ?_
    rw [tok_next hx]
    refine ih ?_
    rw [List.length_append, List.length_cons] at hf
    omega

/-- The same, where the number of rounds is enough for everything to come -/
theorem run_global {gl w tl : List LexerOutput} {o : LexerOutput} {r : Except LatexErrKind CmdStores}
    (hgl : GlobalPart cfg c.stores gl) (hw : Blanks w)
    (h : (tokOf cfg c.stores o = .letCmd ∧ RunDef cfg (letCommand true) tl c rest r) ∨
      (∃ g, tokOf cfg c.stores o = .defCmd g) ∧ RunDef cfg (defCommand true) tl c rest r) :
    RunDef cfg (P.loopFuel >>= globalPrefix) (gl ++ (w ++ o :: tl)) c rest r := by
  have key : ∀ s, Ahead cfg s (gl ++ (w ++ o :: tl)) c → gl.length < s.q.loopFuel := by
    intro s hs
    have h1 := hs.prefix.count (GlobalPart.notEoi hgl)
    have h2 := cnt_loopFuel s.q
    omega
  cases r with
  | ok st' =>
    intro s hs
    exact run_globalPrefix hgl hw h (key s hs) s hs
  | error k =>
    intro s hs
    exact run_globalPrefix hgl hw h (key s hs) s hs

end Verif

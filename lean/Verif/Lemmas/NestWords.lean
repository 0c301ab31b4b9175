import Verif.Lemmas.LogicQueue
import Verif.Spec.Nesting
import Verif.Lemmas.Stores
import Verif.Lemmas.Groups
import Verif.Lemmas.Weights
import Verif.Lemmas.Expansion
/-! Words of tokens which are properly nested, and how a stream is unfolded into a word. -/
namespace Verif
open Model Spec Lexer' TokenQueue

/-! ### Nesting -/

theorem nest_append (st : List Opener) (v w : List Token) : nest st (v ++ w) = (nest st v).bind fun st => nest st w := by
  induction v generalizing st with
  | nil => rfl
  | cons t v ih =>
    rw [List.cons_append, nest, nest]
    cases nestStep st t with
    | none => rfl
    | some st' => exact ih st'

/-- The word can be read wherever `inColumns` is `b`, and changes nothing. -/
def Closed (b : Bool) (w : List Token) : Prop := ∀ st, inColumns st = b → nest st w = some st

theorem Closed.nil (b) : Closed b [] := fun _ _ => rfl

theorem Closed.append {b v w} (hv : Closed b v) (hw : Closed b w) : Closed b (v ++ w) := by
  intro st h
  rw [nest_append, hv st h]
  exact hw st h

theorem calm_step {t : Token} (h : calm t = true) (st : List Opener) : nestStep st t = some st := by
  cases t <;> first | (cases h; done) | rfl | (cases st <;> rfl)

theorem calm_nest {w : List Token} (h : ∀ t ∈ w, calm t = true) (st : List Opener) : nest st w = some st := by
  induction w with
  | nil => rfl
  | cons t w ih =>
    rw [nest, calm_step (h t (by simp))]
    exact ih fun x hx => h x (by simp [hx])

theorem Closed.calm {b w} (h : ∀ t ∈ w, Verif.calm t = true) : Closed b w := fun st _ => calm_nest h st

theorem ws_calm {t : Token} (h : t.isWs = true) : calm t = true := by
  cases t <;> first | (cases h; done) | rfl

/-- A token which can be read on its own and changes nothing -/
def idle (t : Token) : Bool := single t && calm t

theorem ws_single {t : Token} (h : t.isWs = true) : single t = true := by
  cases t <;> first | (cases h; done) | rfl

/-! ### Texts -/

theorem _root_.Verif.Spec.TextArgs.left {v w : List Token} (h : TextArgs (v ++ w)) : TextArgs v := by
  intro pre hd t post he
  refine h pre hd t (post ++ w.filter fun t => !t.isWs) ?_
  rw [List.filter_append, he]; simp

theorem _root_.Verif.Spec.TextArgs.right {v w : List Token} (h : TextArgs (v ++ w)) : TextArgs w := by
  intro pre hd t post he
  refine h (v.filter (fun t => !t.isWs) ++ pre) hd t post ?_
  rw [List.filter_append, he]; simp

/-! ### Unfolding -/
variable {cfg : ParserConfig}

theorem _root_.Verif.Spec.Unfolds.trans {st u v st1 u1 w st2 u2} (h : Unfolds cfg st u v st1 u1)
    (h' : Unfolds cfg st1 u1 w st2 u2) : Unfolds cfg st u (v ++ w) st2 u2 := by
  induction h with
  | nil => exact h'
  | read keep a b c d _ ih => exact .read keep a b c d (ih h')
  | expand a b _ ih => exact .expand a b (ih h')
  | define a b c d e _ ih => exact .define a b c d e (ih h')

theorem single_iff {t : Token} : single t = true ↔ isMacro t = false ∧ isDefinition t = false ∧ t ≠ .eoi := by
  have h3 : t.isEoi = false ↔ t ≠ .eoi := by
    cases t <;> simp [Token.isEoi]
  simp only [single, Bool.and_eq_true, Bool.not_eq_true', h3, and_assoc]

theorem unfolds_read {st u t} (keep : Bool) (h : u 0 = .ok t) (hs : single (asRead keep t).tok = true) :
    Unfolds cfg st u [(asRead keep t).tok] st (u.drop 1) := by
  obtain ⟨h1, h2, h3⟩ := single_iff.1 hs
  exact .read keep h h1 h2 h3 .nil

theorem Stream.drop_zero (u : Stream) : u.drop 0 = u := by
  funext i; unfold Stream.drop; rw [Nat.zero_add]

/-- Reading tokens from the start of a stream -/
theorem unfolds_list {st} {u : Stream} {l : List QueuedTok} (keep : Bool) (hl : StartsWith u l)
    (hs : ∀ t ∈ l, single (asRead keep t).tok = true) :
    Unfolds cfg st u (l.map fun t => (asRead keep t).tok) st (u.drop l.length) := by
  induction l generalizing u with
  | nil => rw [List.length_nil, Stream.drop_zero]; exact .nil
  | cons t l ih =>
    have h0 : u 0 = .ok t := hl 0 (by simp)
    have h1 := unfolds_read (cfg := cfg) (st := st) keep h0 (hs t (by simp))
    have h2 : StartsWith (u.drop 1) l := by
      intro i hi
      have := hl (i + 1) (by simp; omega)
      simp only [List.getElem_cons_succ] at this
      rw [← this]
      unfold Stream.drop
      rw [Nat.add_comm]
    have h3 := ih h2 fun x hx => hs x (by simp [hx])
    rw [Stream.drop_drop] at h3
    rw [List.length_cons, Nat.add_comm]
    exact h1.trans h3

theorem startsWith_ws {u : Stream} {p t} (h : FirstAt u NonWs p t) : ∃ pre : List QueuedTok, pre.length = p ∧
    StartsWith u (pre ++ [t]) ∧ ∀ x ∈ pre, x.tok.isWs = true := by
  obtain ⟨h1, h2, h3⟩ := h
  have : ∀ n ≤ p, ∃ pre : List QueuedTok, pre.length = n ∧ StartsWith u pre ∧ ∀ x ∈ pre, x.tok.isWs = true := by
    intro n
    induction n with
    | zero => intro _; exact ⟨[], rfl, .nil u, by simp⟩
    | succ n ih =>
      intro hn
      obtain ⟨pre, h4, h5, h6⟩ := ih (by omega)
      obtain ⟨x, hx, hx'⟩ := h3 n (by omega)
      refine ⟨pre ++ [x], by simp [h4], h5.append ?_, ?_⟩
      · intro i hi
        have : i = 0 := by simpa using hi
        subst this
        show u (pre.length + 0) = _
        rw [h4]; exact hx
      · intro y hy
        rw [List.mem_append, List.mem_singleton] at hy
        rcases hy with hy | rfl
        · exact h6 y hy
        · unfold NonWs at hx'
          simpa using hx'
  obtain ⟨pre, h4, h5, h6⟩ := this p (Nat.le_refl p)
  refine ⟨pre, h4, h5.append ?_, h6⟩
  intro i hi
  have : i = 0 := by simpa using hi
  subst this
  show u (pre.length + 0) = _
  rw [h4]; exact h1

/-- Reading whitespace and the token after it -/
theorem unfolds_first {st} {u : Stream} {p t} (keep : Bool) (h : FirstAt u NonWs p t)
    (hs : single (asRead keep t).tok = true) :
    ∃ ws : List Token, (∀ x ∈ ws, x.isWs = true) ∧
      Unfolds cfg st u (ws ++ [(asRead keep t).tok]) st (u.drop (p + 1)) := by
  obtain ⟨pre, hl, hst, hws⟩ := startsWith_ws h
  have h1 : StartsWith u pre := by
    intro i hi
    have := hst i (by simp; omega)
    rwa [List.getElem_append_left hi] at this
  have h2 := unfolds_list (cfg := cfg) (st := st) keep h1 fun x hx => by
    rw [asRead_ws (hws x hx)]; exact ws_single (hws x hx)
  have h3 : (u.drop pre.length) 0 = .ok t := by
    show u (pre.length + 0) = _
    rw [hl]; exact h.1
  have h4 := h2.trans (unfolds_read keep h3 hs)
  rw [Stream.drop_drop, hl] at h4
  refine ⟨pre.map fun t => (asRead keep t).tok, ?_, h4⟩
  intro x hx
  obtain ⟨y, hy, rfl⟩ := List.mem_map.1 hx
  rw [asRead_ws (hws y hy)]; exact hws y hy

/-! ### Tokens which can come -/

mutual
/-- Macros have at most nine parameters, and what is different in text mode opens and closes nothing. -/
def fit : Token → Bool
  | .mathOrTextMode t c => fit t && (calm t && !t.isWs) && (single t || c == '…')
  | .customCmdRef _ n _ _ _ => n ≤ 9
  | .customCmd n body => n ≤ 9 && fitAll body
  | .mathChoiceInternal _ d t s ss => fit d && fit t && fit s && fit ss
  | .customCmdArg i | .customCmdArgInput i => i < 9
  | _ => true
/-- The same for several tokens -/
def fitAll : List Token → Bool
  | [] => true
  | t :: ts => fit t && fitAll ts
end

theorem fitAll_mem {l : List Token} (h : fitAll l = true) : ∀ t ∈ l, fit t = true := by
  induction l with
  | nil => simp
  | cons t ts ih =>
    rw [fitAll, Bool.and_eq_true] at h
    intro x hx
    rcases List.mem_cons.1 hx with rfl | hx
    · exact h.1
    · exact ih h.2 x hx

theorem commands_fit : (commands.all (fun e => fit e.2) && unreliableCmds.all (fun e => fit e.2) &&
    substitutedCmds.all (fun e => fit e.2)) = true := by decide +kernel

theorem unicode_fit : unicodeOperators.all (fun e => fit (.mathOrTextMode e.2 'x')) = true := by decide +kernel

theorem dots_fit : fitAll Pre.DOTS = true ∧ fitAll Pre.CDOTS = true := by decide +kernel

theorem builtin_fit {name t} (h : cfg.builtin name = some t) : fit t = true := by
  have hc := commands_fit
  simp only [Bool.and_eq_true] at hc
  unfold ParserConfig.builtin resolveBuiltinCmd at h
  rw [Option.or_eq_some_iff, Option.or_eq_some_iff, Option.or_eq_some_iff] at h
  rcases h with h | ⟨-, h | ⟨-, h | ⟨-, h⟩⟩⟩
  · split at h
    · exact lookup_allB hc.1.2 h
    · cases h
  · split at h
    · exact lookup_allB hc.2 h
    · cases h
  · exact lookup_allB hc.1.1 h
  · split at h
    · cases h; rfl
    · cases h

theorem charToken_fit (c : Char) : fit (Lexer.charToken c) = true := by
  unfold Lexer.charToken
  split <;> first
    | rfl
    | skip
  split
  · rfl
  · split
    · rfl
    · split
      · rename_i tok h
        unfold getOperatorFromUnicode at h
        rw [Option.map_eq_some_iff] at h
        obtain ⟨t, h, rfl⟩ := h
        have := lookup_allB (p := fun t => fit (.mathOrTextMode t 'x')) unicode_fit h
        simp only [fit, Bool.and_eq_true, Bool.or_eq_true] at this ⊢
        exact ⟨this.1, .inl (this.2.resolve_right (by decide))⟩
      · rfl

/-- What the tokeniser can find -/
def FitOut : LexerOutput → Prop
  | .token t => fit t.tok = true
  | .commandName _ _ => True

theorem tokenAt_fit {l : Lexer} {loc ch out l'} (h : l.tokenAt loc ch = .ok (out, l')) : FitOut out := by
  unfold Lexer.tokenAt at h
  split at h
  · cases h
  · split at h
    · unfold Lexer.paramToken at h
      split at h
      · cases h
      · rename_i d _ _
        split at h
        · split at h
          · cases h
            simp only [isAsciiDigit, Bool.and_eq_true, decide_eq_true_eq] at *
            simp only [FitOut, fit, decide_eq_true_eq]
            have h1 : d.toNat ≤ '9'.toNat := ‹_ ∧ _›.2
            have : '9'.toNat = '1'.toNat + 8 := rfl
            omega
          · cases h
        · cases h
    · split at h
      · simp only [Lexer.parseEnvMarker] at h
        split at h
        · obtain ⟨a, e, -, -, rfl⟩ := envMarker_ok h; rfl
        · split at h
          · obtain ⟨a, e, -, -, rfl⟩ := envMarker_ok h; rfl
          · cases h; trivial
      · cases h
        exact charToken_fit ch

theorem nextToken_fit {l : Lexer} {out l'} (h : l.nextToken = .ok (out, l')) : FitOut out := by
  unfold Lexer.nextToken at h
  revert h
  generalize l.rest.length + 1 = fuel
  intro h
  induction fuel generalizing l with
  | zero => cases h; rfl
  | succ fuel ih =>
    unfold Lexer.nextTokenFuel at h
    split at h
    · cases h; rfl
    · split at h
      · cases h; rfl
      · split at h
        · exact ih h
        · exact tokenAt_fit h

theorem unwrap_fit {t : Token} (h : fit t = true) : fit t.unwrapMath = true := by
  cases t with
  | mathOrTextMode t c => simp only [fit, Bool.and_eq_true] at h; exact h.1.1
  | _ => exact h

/-- The same for the body of a macro -/
def RecFit : RecordedToken → Prop
  | .token t => fit t = true
  | .commandName _ => True

/-- The same for all macros -/
structure StoresFit (st : CmdStores) : Prop where
  bodies : ∀ src, ∀ r ∈ bodies st src, RecFit r
  arity : ∀ src name d, (st.store src).map.get name = some d → d.numArgs ≤ 9

theorem absorbStep_fit {loc : CustomCmds} {T : List RecordedToken} {i} (hl : ∀ r ∈ loc.tokens, RecFit r)
    (hT : ∀ r ∈ T, RecFit r) : ∀ r ∈ CustomCmds.absorbStep loc T i, RecFit r := by
  intro r hr
  unfold CustomCmds.absorbStep at hr
  split at hr
  · rename_i n cls s e hi
    have hn := hT _ (List.mem_of_getElem? hi)
    rcases List.mem_or_eq_of_mem_set hr with hr | rfl
    · split at hr
      · rename_i body hb
        rcases List.mem_append.1 hr with hr | hr
        · exact hT r hr
        · refine hl r ?_
          unfold CustomCmds.body sliceGet at hb
          split at hb
          · cases hb
            exact List.mem_of_mem_drop (List.mem_of_mem_take hr)
          · cases hb
      · exact hT r hr
    · exact hn
  · exact hT r hr

theorem absorbLoop_fit {loc : CustomCmds} {fuel : Nat} {T T' : List RecordedToken} {i} (hl : ∀ r ∈ loc.tokens, RecFit r)
    (hT : ∀ r ∈ T, RecFit r) (hx : CustomCmds.absorbLoop loc fuel T i = some T') : ∀ r ∈ T', RecFit r := by
  induction fuel generalizing T i with
  | zero =>
    unfold CustomCmds.absorbLoop at hx
    split at hx
    · cases hx
    · cases hx; exact hT
  | succ fuel ih =>
    unfold CustomCmds.absorbLoop at hx
    split at hx
    · exact ih (absorbStep_fit hl hT) hx
    · cases hx; exact hT

theorem StoresFit.define {s s' : CmdStores} {name n body cls replace isGlobal} (hs : StoresFit s) (hn : n ≤ 9)
    (hb : ∀ r ∈ body, RecFit r) (hd : s.define name n body cls replace isGlobal = some s') : StoresFit s' := by
  have happ : ∀ l : List RecordedToken, (∀ r ∈ l, RecFit r) → ∀ r ∈ l ++ body, RecFit r := by
    intro l hl r hr
    rcases List.mem_append.1 hr with hr | hr
    · exact hl r hr
    · exact hb r hr
  rcases define_cases hd with ⟨-, -, rfl⟩ | ⟨-, -, rfl⟩
  · refine ⟨fun src => ?_, fun src => ?_⟩
    · cases src with
      | config => exact hs.bodies .config
      | loc => exact hs.bodies .loc
      | document =>
        show ∀ r ∈ (CustomCmds.insertOrReplaceAndCopyLocal ..).tokens, RecFit r
        unfold CustomCmds.insertOrReplaceAndCopyLocal CustomCmds.absorb
        simp only [CustomCmds.register]
        cases ha : CustomCmds.absorbLoop s.loc (CustomCmds.absorbFuel s.loc body) (s.document.tokens ++ body)
            s.document.tokens.length with
        | none => exact happ _ (hs.bodies .document)
        | some T => exact absorbLoop_fit (hs.bodies .loc) (happ _ (hs.bodies .document)) ha
    · cases src with
      | config => exact hs.arity .config
      | loc =>
        intro k d hk
        refine hs.arity .loc k d ?_
        change (StrMap.remove ..).get k = _ at hk
        by_cases hkn : k = name
        · subst hkn
          rw [lookup_filter_self] at hk
          cases hk
        · rwa [lookup_filter_ne _ _ _ hkn] at hk
      | document => exact arity_insert (hs.arity .document) hn
  · refine ⟨fun src => ?_, fun src => ?_⟩
    · cases src with
      | config => exact hs.bodies .config
      | document => exact hs.bodies .document
      | loc => exact happ _ (hs.bodies .loc)
    · cases src with
      | config => exact hs.arity .config
      | document => exact hs.arity .document
      | loc => exact arity_insert (hs.arity .loc) hn

theorem resolve_fit {st : CmdStores} {name t} (hs : StoresFit st) (h : st.resolveCommand cfg.builtin name = some t) :
    fit t = true := by
  have hget : ∀ src, (st.store src).get name src = some t → fit t = true := by
    intro src hg
    unfold CustomCmds.get at hg
    split at hg
    · cases hg
    · rename_i d hd
      cases hg
      simpa [fit] using hs.arity src name _ hd
  unfold CmdStores.resolveCommand at h
  split at h
  · rename_i tok hx
    cases h
    rw [Option.or_eq_some_iff, Option.or_eq_some_iff] at hx
    rcases hx with (hx | ⟨-, hx⟩) | ⟨-, hx⟩
    · exact hget .loc hx
    · exact hget .document hx
    · exact hget .config hx
  · exact builtin_fit h

/-- A token of the stream; whitespace does not come from a command. -/
def QFit (t : QueuedTok) : Prop := fit t.tok = true ∧ (t.tok.isWs = true → t.name = none)

/-- The same for all macros and everything to come -/
structure AllFit (st : CmdStores) (u : Stream) : Prop where
  stores : StoresFit st
  toks : ∀ i t, u i = .ok t → QFit t

theorem AllFit.stream {st u} (h : AllFit st u) (i t) (ht : u i = .ok t) : fit t.tok = true := (h.toks i t ht).1

theorem AllFit.drop {st u} (h : AllFit st u) (n) : AllFit st (u.drop n) := ⟨h.stores, fun _ _ ht => h.toks _ _ ht⟩

theorem AllFit.push {st u} (h : AllFit st u) {ts : List QueuedTok} (ht : ∀ t ∈ ts, QFit t) :
    AllFit st (u.push ts) := by
  refine ⟨h.stores, fun i t hi => ?_⟩
  unfold Stream.push at hi
  split at hi
  · rename_i t' h'
    cases hi
    exact ht _ (List.mem_of_getElem? h')
  · exact h.toks _ _ hi

theorem asRead_fit {t : QueuedTok} {keep} (h : fit t.tok = true) : fit (asRead keep t).tok = true := by
  unfold asRead
  split
  · exact h
  · exact unwrap_fit h

theorem unwrap_not_ws {t : Token} (h : fit t = true) (hw : t.isWs = false) : t.unwrapMath.isWs = false := by
  cases t with
  | mathOrTextMode t c =>
    simp only [fit, Bool.and_eq_true, Bool.not_eq_true'] at h; exact h.1.2.2
  | _ => exact hw

theorem QFit.unwrap {t : QueuedTok} (h : QFit t) : QFit t.unwrapMath := by
  refine ⟨unwrap_fit h.1, fun hw => ?_⟩
  cases ht : t.tok.isWs with
  | true => exact h.2 ht
  | false => exact absurd hw (by rw [show t.unwrapMath.tok.isWs = false from unwrap_not_ws h.1 ht]; simp)

theorem startsWith_qfit {st u l} (h : AllFit st u) (hl : StartsWith u l) : ∀ t ∈ l, QFit t := by
  intro t ht
  obtain ⟨i, hi, rfl⟩ := List.mem_iff_getElem.1 ht
  exact h.toks i _ (hl i hi)

theorem startsWith_fit {st u l} (h : AllFit st u) (hl : StartsWith u l) : ∀ t ∈ l, fit t.tok = true :=
  fun t ht => (startsWith_qfit h hl t ht).1

theorem argAt_fit {st u arg rest} (h : AllFit st u) (ha : ArgAt u arg rest) :
    (∀ t ∈ arg, QFit t) ∧ AllFit st rest := by
  cases ha with
  | token h1 h2 h3 =>
    refine ⟨?_, h.drop _⟩
    intro t ht
    cases List.mem_singleton.1 ht
    exact (h.toks _ _ h1.1).unwrap
  | group h1 h2 h3 => exact ⟨startsWith_qfit (h.drop _) h3.starts, h.drop _⟩

theorem argsAt_fit {st n u args rest} (h : AllFit st u) (ha : ArgsAt n u args rest) :
    (∀ arg ∈ args, ∀ t ∈ arg, QFit t) ∧ AllFit st rest := by
  induction ha with
  | nil => exact ⟨by simp, h⟩
  | cons h1 _ ih =>
    obtain ⟨h2, h3⟩ := argAt_fit h h1
    obtain ⟨h4, h5⟩ := ih h3
    refine ⟨?_, h5⟩
    intro arg ha
    rcases List.mem_cons.1 ha with rfl | ha
    · exact h2
    · exact h4 arg ha

theorem argument_fit {args : List (List QueuedTok)} (h : ∀ arg ∈ args, ∀ t ∈ arg, QFit t) (span i) :
    ∀ t ∈ argument args span i, QFit t := by
  unfold argument
  split
  · rename_i hx; exact h _ (List.mem_of_getElem? hx)
  · simp [QFit, fit]

theorem substituted_fit {st : CmdStores} {args : List (List QueuedTok)} (hs : StoresFit st)
    (h : ∀ arg ∈ args, ∀ t ∈ arg, QFit t) (span) {r : RecordedToken} (hr : RecFit r) :
    ∀ t ∈ substituted (known cfg st) args span r, QFit t := by
  unfold substituted
  split
  · exact argument_fit h _ _
  · intro t ht; cases List.mem_singleton.1 ht; exact ⟨hr, fun _ => rfl⟩
  · split
    · rename_i hk
      intro t ht; cases List.mem_singleton.1 ht; exact ⟨resolve_fit hs hk, fun _ => rfl⟩
    · intro t ht; cases List.mem_singleton.1 ht; exact ⟨rfl, fun _ => rfl⟩

theorem expansion_fit {st : CmdStores} {args : List (List QueuedTok)} (hs : StoresFit st)
    (h : ∀ arg ∈ args, ∀ t ∈ arg, QFit t) (span) {body : List RecordedToken} (hr : ∀ r ∈ body, RecFit r) :
    ∀ t ∈ expansion (known cfg st) args span body, QFit t := by
  unfold expansion
  split
  · intro t ht; cases List.mem_singleton.1 ht; exact ⟨rfl, fun _ => rfl⟩
  · intro t ht
    obtain ⟨r, hr', ht⟩ := List.mem_flatMap.1 ht
    exact substituted_fit hs h span (hr r hr') t ht

theorem replaced_fit {st u span tok ts rest} (h : AllFit st u) (htok : fit tok = true)
    (hr : Replaced cfg st u span tok ts rest) : AllFit st (rest.push ts) := by
  cases hr with
  | «macro» hb ha =>
    obtain ⟨h1, h2⟩ := argsAt_fit h ha
    exact h2.push (expansion_fit h.stores h1 _ fun r hr => h.stores.bodies _ r (getBody_mem hb r hr))
  | builtin ha =>
    obtain ⟨h1, h2⟩ := argsAt_fit h ha
    simp only [fit, Bool.and_eq_true] at htok
    refine h2.push (expansion_fit h.stores h1 _ fun r hr => ?_)
    obtain ⟨t, ht, rfl⟩ := List.mem_map.1 hr
    exact fitAll_mem htok.2 t ht
  | choice ha hi =>
    obtain ⟨h1, h2⟩ := argsAt_fit h ha
    exact h2.push (argument_fit h1 _ _)
  | dots hd =>
    refine h.push fun t ht => ?_
    obtain ⟨x, hx, rfl⟩ := List.mem_map.1 ht
    rcases hd with rfl | rfl
    · exact ⟨fitAll_mem dots_fit.1 x hx, fun _ => rfl⟩
    · exact ⟨fitAll_mem dots_fit.2 x hx, fun _ => rfl⟩
  | choiceInternal hx =>
    refine h.push fun t ht => ?_
    cases List.mem_singleton.1 ht
    simp only [fit, Bool.and_eq_true] at htok
    refine ⟨?_, fun _ => rfl⟩
    rcases hx with rfl | rfl | rfl | rfl
    · exact htok.1.1.1
    · exact htok.1.1.2
    · exact htok.1.2
    · exact htok.2

theorem recorded_fit {l : List QueuedTok} {arity r} (hl : ∀ t ∈ l, fit t.tok = true) (ha : arity ≤ 9)
    (hr : Recorded l arity r) : RecFit r := by
  unfold Recorded at hr
  split at hr
  · trivial
  · rename_i i
    rcases hr with hr | ⟨t, ht, keep, hk⟩
    · show fit _ = true
      simp only [fit, decide_eq_true_eq]; omega
    · show fit _ = true
      rw [← hk]; exact asRead_fit (hl t ht)
  · obtain ⟨t, ht, keep, hk⟩ := hr
    show fit _ = true
    rw [← hk]; exact asRead_fit (hl t ht)

theorem defined_fit {st st1 : CmdStores} {l : List QueuedTok} (hs : StoresFit st) (hl : ∀ t ∈ l, fit t.tok = true)
    (h : Defined st l st1) : StoresFit st1 := by
  rcases h with rfl | ⟨name, arity, body, cls, replace, isGlobal, h1, h2, h3⟩
  · exact hs
  · exact hs.define h1 (fun r hr => recorded_fit hl h1 (h2 r hr)) h3

theorem renamed_fit {st st1 u u1} (h : AllFit st u) (hs : StoresFit st1) (hr : Renamed cfg st1 u u1) : AllFit st1 u1 := by
  refine ⟨hs, fun i t ht => ?_⟩
  rcases hr i with hr | ⟨t', tok, name, h1, h2, h3, h4⟩
  · exact h.toks i t (hr ▸ ht)
  · rw [h2] at ht
    cases ht
    rcases h4 with h4 | rfl
    · refine ⟨resolve_fit hs h4, fun hw => ?_⟩
      have := (resolve_props h4).1
      rw [show tok.isWs = true from hw] at this; cases this
    · exact ⟨rfl, fun hw => by cases hw⟩

theorem _root_.Verif.Spec.Unfolds.good {st u w st' u'} (h : Unfolds cfg st u w st' u') (hg : AllFit st u) :
    AllFit st' u' := by
  induction h with
  | nil => exact hg
  | read keep a b c d _ ih => exact ih (hg.drop 1)
  | expand a b _ ih => exact ih (replaced_fit (hg.drop _) (unwrap_fit (hg.stream _ _ a.1)) b)
  | @define st u p t l st1 u1 w st' u' a b c d e _ ih =>
    refine ih (renamed_fit (hg.drop _) ?_ e)
    exact defined_fit hg.stores (startsWith_fit (hg.drop _) c) d

end Verif

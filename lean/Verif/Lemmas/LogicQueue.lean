import Verif.Lemmas.Logic
/-! The logic for the parts of the queue which read groups and definitions. -/
namespace Verif
open Model Spec Lexer' TokenQueue Logic

variable [L : Limits] {cfg : ParserConfig} {input : Str} {q : TokenQueue} {h : List Token}

omit L in
theorem one_pos {t : Token} (h : t.isEoi = false) : one t = 1 := by unfold one; rw [h]; rfl

theorem qtoks_mono {h h' : List Token} {l : List QueuedTok} (hs : Sub h h') (hl : ∀ t ∈ l, QTokOk input h t) :
    ∀ t ∈ l, QTokOk input h' t := fun t ht => (hl t ht).mono hs

theorem qtoks_snoc {h : List Token} {l : List QueuedTok} {t} (hl : ∀ t ∈ l, QTokOk input h t) (ht : QTokOk input h t) :
    ∀ x ∈ l ++ [t], QTokOk input h x := by
  intro x hx
  rcases List.mem_append.1 hx with hx | hx
  · exact hl x hx
  · rw [List.mem_singleton.1 hx]; exact ht

/-- One more token of a body -/
theorem wp_macroStep {fuel n : Nat} {acc : List QueuedTok}
    (ih : ∀ q h, GQ input q h → cnt q < fuel → ∀ acc : List QueuedTok, (∀ t ∈ acc, QTokOk input h t) →
      (LQ cfg input).Wp (recordMacroBodyLoop fuel n acc) q h fun toks _ h' => ∀ t ∈ toks, QTokOk input h' t)
    (hg : GQ input q h) (hf : cnt q < fuel + 1) (hacc : ∀ t ∈ acc, QTokOk input h t)
    (hne : q.peekAnyKeepingName.tok.isEoi = false) :
    (LQ cfg input).Wp (nextAnyAllowingUnknown >>= fun _ => recordMacroBodyLoop fuel n (acc ++ [q.peekAnyKeepingName]))
      q h fun toks _ h' => ∀ t ∈ toks, QTokOk input h' t := by
  refine Wp.bind (wp_nextAnyAllowing hg) ?_
  rintro t q1 h1 hr hg1 ⟨hp, rfl⟩
  have := hp.cnt
  rw [one_pos hne] at this
  exact ih q1 h1 hg1 (by omega) _ (qtoks_snoc (qtoks_mono hr.sub hacc) hp.ok)

theorem wp_recordMacroBodyLoop {fuel n : Nat} {acc : List QueuedTok} (hg : GQ input q h) (hf : cnt q < fuel)
    (hacc : ∀ t ∈ acc, QTokOk input h t) :
    (LQ cfg input).Wp (recordMacroBodyLoop fuel n acc) q h fun toks _ h' => ∀ t ∈ toks, QTokOk input h' t := by
  induction fuel generalizing q h n acc with
  | zero => omega
  | succ fuel ih =>
    unfold recordMacroBodyLoop
    refine Wp.get_bind ?_
    simp only
    split
    · rename_i ht
      split
      · exact Wp.pure hg hacc
      · exact wp_macroStep (fun q h hg hf acc hacc => ih hg hf hacc) hg hf hacc (by rw [ht]; rfl)
    · exact Wp.throw (hg.peekAnyKeepingOk.span.err _)
    · rename_i ht
      refine wp_macroStep (fun q h hg hf acc hacc => ih hg hf hacc) hg hf hacc ?_
      cases he : q.peekAnyKeepingName.tok.isEoi with
      | false => rfl
      | true => exact absurd (eoi_of_isEoi he) ht

theorem wp_recordMacroBody (hg : GQ input q h) :
    (LQ cfg input).Wp recordMacroBody q h fun toks _ h' => ∀ t ∈ toks, QTokOk input h' t := by
  refine Wp.bind (wp_next hg) fun t q1 h1 hr hg1 _ => ?_
  refine Wp.get_bind ?_
  have := cnt_loopFuel q1
  exact wp_recordMacroBodyLoop hg1 (by omega) (by simp)

/-- What is known about a group which has been read -/
structure GroupRead (input : Str) (acc : List QueuedTok) (q : TokenQueue) (r : List QueuedTok × Nat) (q' : TokenQueue)
    (h' : List Token) : Prop where
  toks : ∀ t ∈ r.1, QTokOk input h' t
  stop : Bnd input r.2
  mu : wsum weight r.1 + mu weight 4 q' + 1 ≤ wsum weight acc + mu weight 4 q
  cnt : cnt q' + 1 ≤ cnt q

theorem wp_groupRead (keep : Bool) (hg : GQ input q h) :
    (LQ cfg input).Wp (if keep then nextAnyKeepingName else nextKeepingName) q h fun t q' h' => ReadQ input q t q' h' := by
  cases keep
  · exact (wp_nextKeepingName hg).mono fun _ _ _ _ _ h => h.1
  · exact (wp_nextAnyKeepingName hg).mono fun _ _ _ _ _ h => h.1

theorem wp_recordGroupLoop {keep : Bool} {fuel n : Nat} {acc : List QueuedTok} (hg : GQ input q h) (hf : cnt q < fuel)
    (hacc : ∀ t ∈ acc, QTokOk input h t) :
    (LQ cfg input).Wp (recordGroupLoop keep fuel n acc) q h (GroupRead input acc q) := by
  induction fuel generalizing q h n acc with
  | zero => omega
  | succ fuel ih =>
    rw [recordGroupLoop_succ]
    refine Wp.bind (wp_groupRead keep hg) fun t q1 h1 hr hg1 hp => ?_
    have hm := hp.mu
    have hc := hp.cnt
    have hacc1 := qtoks_mono hr.sub hacc
    have hrec : ∀ n, t.tok.isEoi = false →
        (LQ cfg input).Wp (recordGroupLoop keep fuel n (acc ++ [t])) q1 h1 (GroupRead input acc q) := by
      intro n hne
      rw [one_pos hne] at hc
      refine (ih hg1 (by omega) (qtoks_snoc hacc1 hp.ok)).mono fun r q2 h2 _ _ hx => ⟨hx.toks, hx.stop, ?_, ?_⟩
      · have := hx.mu
        simp only [wsum_append, wsum_cons, wsum_nil] at this
        omega
      · have := hx.cnt; omega
    unfold groupCont
    split
    · rename_i ht
      split
      · rw [ht] at hm hc
        simp only [weight] at hm
        rw [one_pos rfl] at hc
        exact Wp.pure hg1 ⟨hacc1, hp.ok.span.2, by show wsum weight acc + _ + 1 ≤ _; omega, by omega⟩
      · exact hrec _ (by rw [ht]; rfl)
    · exact Wp.throw (hp.ok.span.err _)
    · rename_i ht
      refine hrec _ ?_
      cases he : t.tok.isEoi with
      | false => rfl
      | true => exact absurd (eoi_of_isEoi he) ht

theorem wp_recordGroup {keep : Bool} (hg : GQ input q h) :
    (LQ cfg input).Wp (recordGroup keep) q h (GroupRead input [] q) := by
  have := cnt_loopFuel q
  exact Wp.get_bind (wp_recordGroupLoop hg (by omega) (by simp))

/-- The tokens of an argument are as they should be. -/
def ArgOk (input : Str) (h : List Token) : MacroArgument → Prop
  | .token t => TokOk input h t
  | .group toks span => (∀ t ∈ toks, TokOk input h t) ∧ SpanOk input span

/-- What is known about an argument which has been read -/
structure ArgRead (input : Str) (q : TokenQueue) (a : MacroArgument) (q' : TokenQueue) (h' : List Token) : Prop where
  ok : ArgOk input h' a
  mu : mu weight 4 q' ≤ mu weight 4 q
  cnt : cnt q' ≤ cnt q
  pos : (∃ t, a = .token t ∧ t.tok.isEoi = true) ∨ (Verif.mu weight 4 q' + 1 ≤ Verif.mu weight 4 q ∧ Verif.cnt q' + 1 ≤ Verif.cnt q)

omit L in
theorem isGroupBegin_eq {t : Token} (h : t.isGroupBegin = true) : t = .groupBegin := by
  cases t <;> first | rfl | cases h

theorem unwrap_isEoi {h : List Token} {t : Token} (ht : TokHeld h t) (he : t.unwrapMath.isEoi = true) :
    t.isEoi = true := by
  unfold Token.unwrapMath at he
  split at he
  · rename_i t c
    rcases ht with h1 | ⟨⟨_, _, _, _, _, -, h1⟩, -⟩
    · simp only [plain, Bool.and_eq_true, Bool.not_eq_true'] at h1
      rw [h1.1.2] at he; cases he
    · cases h1
  · exact he

theorem wp_readArgument {keep : Bool} (hg : GQ input q h) :
    (LQ cfg input).Wp (readArgument keep) q h (ArgRead input q) := by
  refine Wp.get_bind ?_
  refine Wp.bind (wp_next hg) ?_
  rintro t q1 h1 hr hg1 ⟨hp, he⟩
  have hm := hp.mu
  have hc := hp.cnt
  have hpk : TokOk input h1 q.peek := hg.peekOk.mono hr.sub
  have hpos : t.tok.isEoi = false → mu weight 4 q1 + 1 ≤ mu weight 4 q ∧ cnt q1 + 1 ≤ cnt q := by
    intro hne
    rw [one_pos hne] at hc
    have := tokWeight_pos hne
    omega
  have hfirst : TokOk input h1 (if keep then q.peek else t) ∧
      (t.tok.isEoi = true → (if keep then q.peek else t).tok.isEoi = true) := by
    cases keep
    · exact ⟨hp.ok, id⟩
    · refine ⟨hpk, fun hte => ?_⟩
      rw [he] at hte
      exact unwrap_isEoi hg.peekOk.held hte
  simp only
  generalize (if keep = true then q.peek else t) = first at hfirst
  obtain ⟨hf1, hf2⟩ := hfirst
  split
  · rename_i hb
    have hne : t.tok.isEoi = false := by
      cases ht : t.tok.isEoi with
      | false => rfl
      | true =>
        have := hf2 ht
        rw [isGroupBegin_eq hb] at this; cases this
    have := hpos hne
    refine Wp.bind (wp_recordGroup hg1) fun r q2 h2 hr2 hg2 hx => ?_
    have hx1 := hx.mu
    have hx2 := hx.cnt
    simp only [wsum_nil] at hx1
    refine Wp.pure hg2 ⟨⟨?_, hf1.span.1, hx.stop⟩, by omega, by omega, Or.inr ⟨by omega, by omega⟩⟩
    intro x hxm
    obtain ⟨y, hy, rfl⟩ := List.mem_map.1 hxm
    exact (hx.toks y hy).ts
  · refine Wp.pure hg1 ⟨hf1, by omega, by omega, ?_⟩
    cases ht : t.tok.isEoi with
    | false => exact Or.inr (hpos ht)
    | true => exact Or.inl ⟨_, rfl, hf2 ht⟩

theorem wp_readDefinitionName (hg : GQ input q h) :
    (LQ cfg input).Wp readDefinitionName q h fun _ _ _ => True := by
  refine Wp.bind (wp_nextAllowing hg) ?_
  rintro t q1 h1 hr hg1 ⟨hp, he⟩
  split
  · exact Wp.pure hg1 trivial
  · split
    · exact Wp.pure hg1 trivial
    · exact Wp.throw (hp.ok.span.err _)

/-! ### Definitions -/

theorem notRef_of_plain {t : Token} (h : plain t = true) : NotRef (.token t) := by
  unfold NotRef
  split
  · rename_i h1
    cases h1
    simp [plain] at h
  · trivial

theorem notRef_of_cases {t : Token} (h : plain t = true ∨ IsRef t) : NotRef (.token t) ∨ IsRef t :=
  h.imp notRef_of_plain id

/-- The recorded body can be written down from what has been looked up, and its tokens are as they should be. -/
structure BodyOk (h : List Token) (body : List RecordedToken) : Prop where
  items : ∃ items, recordedBody h items = some body
  recs : ∀ r ∈ body, RecOk r

theorem BodyOk.nil (h) : BodyOk h [] := ⟨⟨[], rfl⟩, by simp⟩

theorem BodyOk.cons {h r body item} (hi : BodyItem.recorded h item = some r) (hr : RecOk r) (hb : BodyOk h body) :
    BodyOk h (r :: body) := by
  obtain ⟨⟨items, h1⟩, h2⟩ := hb
  refine ⟨⟨item :: items, ?_⟩, ?_⟩
  · unfold recordedBody at h1 ⊢
    rw [List.mapM_cons, hi, h1]; rfl
  · intro x hx
    rcases List.mem_cons.1 hx with rfl | hx
    · exact hr
    · exact h2 x hx

/-- Every held token can be recorded. -/
theorem item_of_held {h : List Token} {t : Token} (ht : TokHeld h t) :
    ∃ item, BodyItem.recorded h item = some (.token t) ∧ RecOk (.token t) := by
  rcases ht with ht | ⟨hr, hm⟩
  · exact ⟨.plain t, by simp [BodyItem.recorded, notRef_of_plain ht], Or.inl ht⟩
  · obtain ⟨i, hi⟩ := List.getElem?_of_mem hm
    exact ⟨.lookedUp i, by simp [BodyItem.recorded, hi], Or.inr (Or.inl hr)⟩

theorem mapRecordedToken_ok {n : Nat} {t : QueuedTok} {r} (ht : QTokOk input h t)
    (hr : mapRecordedToken n t = .ok r) : ∃ item, BodyItem.recorded h item = some r ∧ RecOk r := by
  unfold mapRecordedToken at hr
  split at hr
  · split at hr
    · cases hr
    · cases hr
      rename_i n htok _
      have hp : plain (.customCmdArgInput n) = true := by
        rcases ht.held with h1 | ⟨⟨_, _, _, _, _, -, h1⟩, -⟩
        · rwa [htok] at h1
        · rw [htok] at h1; cases h1
      refine ⟨.plain (.customCmdArg n), by simp [BodyItem.recorded, NotRef], Or.inr (Or.inr ?_)⟩
      simpa [plain, payloadOk, argOk] using hp
  · cases hr
  · cases hr
  · cases hr
  · cases hr
  · rename_i name htok
    cases hr
    refine ⟨.name _, rfl, ?_⟩
    rcases ht.held with h1 | ⟨⟨_, _, _, _, _, -, h1⟩, -⟩
    · rw [htok] at h1
      simpa [plain, payloadOk, RecOk] using h1
    · rw [htok] at h1; cases h1
  · split at hr
    · rename_i name hname
      cases hr
      exact ⟨.name _, rfl, (ht.named _ hname).1⟩
    · cases hr
      exact item_of_held ht.held

theorem mapRecordedToken_err {n : Nat} {t : QueuedTok} {e} (ht : QTokOk input h t)
    (hr : mapRecordedToken n t = .error e) : ErrGood input e := by
  unfold mapRecordedToken at hr
  split at hr
  · split at hr <;> cases hr
    exact ht.span.err _
  · cases hr; exact ht.span.err _
  · cases hr; exact ht.span.err _
  · cases hr; exact ht.span.err _
  · cases hr; exact ht.span.err _
  · cases hr
  · split at hr <;> cases hr

theorem mapM_recorded {n : Nat} {l : List QueuedTok} (hl : ∀ t ∈ l, QTokOk input h t) :
    (∀ body, l.mapM (mapRecordedToken n) = .ok body → BodyOk h body) ∧
    (∀ e, l.mapM (mapRecordedToken n) = .error e → ErrGood input e) := by
  induction l with
  | nil =>
    refine ⟨?_, ?_⟩
    · intro body hb; cases hb; exact BodyOk.nil h
    · intro e he; cases he
  | cons t ts ih =>
    obtain ⟨ih1, ih2⟩ := ih fun x hx => hl x (by simp [hx])
    have ht := hl t (by simp)
    rw [List.mapM_cons]
    cases hm : mapRecordedToken n t with
    | error e =>
      refine ⟨(by intro body hb; cases hb), ?_⟩
      intro e' he; cases he
      exact mapRecordedToken_err ht hm
    | ok r =>
      obtain ⟨item, h1, h2⟩ := mapRecordedToken_ok ht hm
      cases hms : ts.mapM (mapRecordedToken n) with
      | error e =>
        refine ⟨(by intro body hb; cases hb), ?_⟩
        intro e' he; cases he
        exact ih2 _ hms
      | ok rs =>
        refine ⟨?_, (by intro e he; cases he)⟩
        intro body hb; cases hb
        exact BodyOk.cons h1 h2 (ih1 _ hms)

theorem mapRecordedTokens_spec {n : Nat} {l : List QueuedTok} (hl : ∀ t ∈ l, QTokOk input h t) :
    (∀ r, mapRecordedTokens l n = .ok r → BodyOk h r.1) ∧
    (∀ e, mapRecordedTokens l n = .error e → ErrGood input e) := by
  obtain ⟨h1, h2⟩ := mapM_recorded (n := n) hl
  unfold mapRecordedTokens
  cases hm : l.mapM (mapRecordedToken n) with
  | error e => exact ⟨(by intro r hr; cases hr), (by intro e he; cases he; exact h2 _ hm)⟩
  | ok b => exact ⟨(by intro r hr; cases hr; exact h1 _ hm), (by intro e he; cases he)⟩

/-! ### What a definition does to the bodies -/

theorem absorbStep_rec {loc : CustomCmds} {T : List RecordedToken} {i} (hl : ∀ r ∈ loc.tokens, RecOk r)
    (hT : ∀ r ∈ T, RecOk r) : ∀ r ∈ CustomCmds.absorbStep loc T i, RecOk r := by
  intro r hr
  unfold CustomCmds.absorbStep at hr
  split at hr
  · rename_i n cls st en hi
    have hn := hT _ (List.mem_of_getElem? hi)
    simp only at hr
    rcases List.mem_or_eq_of_mem_set hr with hr | rfl
    · split at hr
      · rename_i body hb
        rcases List.mem_append.1 hr with hr | hr
        · exact hT r hr
        · unfold CustomCmds.body sliceGet at hb
          split at hb
          · cases hb
            exact hl r (mem_slice hr)
          · cases hb
      · exact hT r hr
    · rcases hn with hn | ⟨_, _, _, _, _, hn, he⟩ | hn
      · simp [plain] at hn
      · cases he
        exact Or.inr (Or.inl ⟨_, _, _, _, _, hn, rfl⟩)
      · simp [argOk] at hn
  · exact hT r hr

theorem absorbLoop_rec {loc : CustomCmds} {fuel : Nat} {T T' : List RecordedToken} {i} (hl : ∀ r ∈ loc.tokens, RecOk r)
    (hT : ∀ r ∈ T, RecOk r) (hx : CustomCmds.absorbLoop loc fuel T i = some T') : ∀ r ∈ T', RecOk r := by
  induction fuel generalizing T i with
  | zero =>
    unfold CustomCmds.absorbLoop at hx
    split at hx
    · cases hx
    · cases hx; exact hT
  | succ fuel ih =>
    unfold CustomCmds.absorbLoop at hx
    split at hx
    · exact ih (absorbStep_rec hl hT) hx
    · cases hx; exact hT

omit L in
theorem arity_insert {m : StrMap CmdDef} {name : Str} {v : CmdDef} (h : ∀ k d, m.get k = some d → d.numArgs ≤ 9)
    (hv : v.numArgs ≤ 9) : ∀ k d, (m.insert name v).get k = some d → d.numArgs ≤ 9 := by
  intro k d hk
  rw [get_insert] at hk
  split at hk
  · cases hk; exact hv
  · exact h k d hk

theorem StoresPlain.define {s s' : CmdStores} {name n body cls replace isGlobal} (hs : StoresPlain s) (hn : n ≤ 9)
    (hb : ∀ r ∈ body, RecOk r) (hd : s.define name n body cls replace isGlobal = some s') : StoresPlain s' := by
  have happ : ∀ l : List RecordedToken, (∀ r ∈ l, RecOk r) → ∀ r ∈ l ++ body, RecOk r := by
    intro l hl r hr
    rcases List.mem_append.1 hr with hr | hr
    · exact hl r hr
    · exact hb r hr
  rcases define_cases hd with ⟨-, -, rfl⟩ | ⟨-, -, rfl⟩
  · refine ⟨fun src => ?_, fun src => ?_⟩
    · cases src with
      | config => exact hs.bodies .config
      | loc => exact hs.bodies .loc
      | document =>
        show ∀ r ∈ (CustomCmds.insertOrReplaceAndCopyLocal ..).tokens, RecOk r
        unfold CustomCmds.insertOrReplaceAndCopyLocal CustomCmds.absorb
        simp only [CustomCmds.register]
        cases ha : CustomCmds.absorbLoop s.loc (CustomCmds.absorbFuel s.loc body) (s.document.tokens ++ body)
            s.document.tokens.length with
        | none => exact happ _ (hs.bodies .document)
        | some T => exact absorbLoop_rec (hs.bodies .loc) (happ _ (hs.bodies .document)) ha
    · cases src with
      | config => exact hs.arity .config
      | loc =>
        intro k d hk
        refine hs.arity .loc k d ?_
        change (StrMap.remove ..).get k = _ at hk
        by_cases hkn : k = name
        · subst hkn
          rw [lookup_filter_self] at hk
          cases hk
        · rwa [lookup_filter_ne _ _ _ hkn] at hk
      | document => exact arity_insert (hs.arity .document) hn
  · refine ⟨fun src => ?_, fun src => ?_⟩
    · cases src with
      | config => exact hs.bodies .config
      | document => exact hs.bodies .document
      | loc => exact happ _ (hs.bodies .loc)
    · cases src with
      | config => exact hs.arity .config
      | document => exact hs.arity .document
      | loc => exact arity_insert (hs.arity .loc) hn

/-! ### The definition itself -/

omit L in
theorem findNonWs_congr {l : List QueuedTok} {f : QueuedTok → QueuedTok} (hf : ∀ t ∈ l, (f t).tok.isWs = t.tok.isWs) :
    findNonWs (l.map f) = findNonWs l := by
  induction l with
  | nil => rfl
  | cons t ts ih =>
    simp only [List.map_cons, findNonWs, hf t (by simp), ih fun x hx => hf x (by simp [hx])]

omit L in
theorem wsum_map_le {w : Token → Nat} {l : List QueuedTok} {f : QueuedTok → QueuedTok}
    (hf : ∀ t ∈ l, w (f t).tok ≤ w t.tok) : wsum w (l.map f) ≤ wsum w l := by
  induction l with
  | nil => simp
  | cons t ts ih =>
    rw [List.map_cons, wsum_cons, wsum_cons]
    have h1 := hf t (by simp)
    have h2 := ih fun x hx => hf x (by simp [hx])
    omega

/-- The tokens in the queue are replaced by others which are no harder to deal with. -/
theorem GQ.mapQueue {h' : List Token} {stores : CmdStores} {f : QueuedTok → QueuedTok} (hg : GQ input q h)
    (hws : ∀ t ∈ q.queue, (f t).tok.isWs = t.tok.isWs) (hok : ∀ t ∈ q.queue, QTokOk input h' (f t))
    (hw : ∀ t ∈ q.queue, weight (f t).tok ≤ weight t.tok) (ho : ∀ t ∈ q.queue, one (f t).tok ≤ one t.tok)
    (hst : StoresPlain stores)
    (hd : ∃ ops, (∀ op ∈ ops, DefOp.quiet cfg op) ∧
      DefState.run cfg.builtin ⟨q.stores, h⟩ ops = some ⟨stores, h'⟩) (hs : Sub h h') :
    RQ cfg q h { q with stores := stores, queue := q.queue.map f } h' ∧
      GQ input { q with stores := stores, queue := q.queue.map f } h' := by
  refine ⟨⟨hd, hs, ?_, ?_, rfl, rfl, fun _ => hst⟩, ⟨?_, hg.inv.more⟩, hg.lex, ?_, hst, ?_⟩
  · have := wsum_map_le hw
    unfold mu; simp only; omega
  · have := wsum_map_le ho
    unfold cnt mu; simp only; omega
  · show findNonWs (q.queue.map f) = _
    rw [findNonWs_congr hws]; exact hg.inv.next
  · intro t ht
    obtain ⟨x, hx, rfl⟩ := List.mem_map.1 ht
    exact hok x hx
  · obtain ⟨ops, -, hr⟩ := hd
    exact run_inv (builtin_notRef cfg) hg.held hr

/-- Names in the queue are looked up again. -/
theorem lookups (stores : CmdStores) (hst : StoresPlain stores) (l : List QueuedTok) (h : List Token) (f : QueuedTok → QueuedTok)
    (hf : ∀ t ∈ l, f t = t ∨ ∃ name tok, nameOk name = true ∧ stores.resolveCommand cfg.builtin name = some tok ∧ f t = t.withToken tok)
    (hl : ∀ t ∈ l, QTokOk input h t) :
    ∃ h' ops, (∀ op ∈ ops, DefOp.quiet cfg op) ∧ DefState.run cfg.builtin ⟨stores, h⟩ ops = some ⟨stores, h'⟩ ∧
      Sub h h' ∧ ∀ t ∈ l, QTokOk input h' (f t) := by
  induction l generalizing h with
  | nil => exact ⟨h, [], by simp, rfl, fun _ h => h, by simp⟩
  | cons t ts ih =>
    have ht := hl t (by simp)
    rcases hf t (by simp) with he | ⟨name, tok, hk, h1, h2⟩
    · obtain ⟨h', ops, hw, hr, hs, hx⟩ := ih h (fun x hx => hf x (by simp [hx])) (fun x hx => hl x (by simp [hx]))
      refine ⟨h', ops, hw, hr, hs, ?_⟩
      intro x hxm
      rcases List.mem_cons.1 hxm with rfl | hxm
      · rw [he]; exact ht.mono hs
      · exact hx x hxm
    · obtain ⟨h', ops, hw, hr, hs, hx⟩ := ih (tok :: h) (fun x hx => hf x (by simp [hx]))
        (fun x hx => (hl x (by simp [hx])).mono fun _ h => List.mem_cons_of_mem _ h)
      refine ⟨h', .lookup name :: ops, ?_, ?_, fun t ht => hs _ (List.mem_cons_of_mem _ ht), ?_⟩
      · intro op hop
        rcases List.mem_cons.1 hop with rfl | hop
        · trivial
        · exact hw op hop
      · simp only [DefState.run, DefState.apply, h1, Option.map_some, Option.bind_some]
        exact hr
      · intro x hxm
        rcases List.mem_cons.1 hxm with rfl | hxm
        · rw [h2]
          rcases resolve_cases hk h1 with ⟨a, b, c, d, e, rfl⟩ | hb
          · exact ⟨Or.inr ⟨hst.ref h1, hs _ List.mem_cons_self⟩, ht.span, fun n hn => ⟨(ht.named n hn).1, rfl, rfl⟩⟩
          · have := builtinOkB_iff.1 hb
            exact ⟨Or.inl this.1, ht.span, fun n hn => ⟨(ht.named n hn).1, this.2.2⟩⟩
        · exact hx x hxm

omit L in
theorem resolve_props {stores : CmdStores} {name tok} (h : stores.resolveCommand cfg.builtin name = some tok) :
    tok.isWs = false ∧ tok.isEoi = false ∧ weight tok ≤ 4 := by
  rcases @resolve_cases .nothing _ _ _ _ rfl h with ⟨a, b, c, d, e, rfl⟩ | hb
  · exact ⟨rfl, rfl, by simp [weight]⟩
  · have := (@builtinOkB_iff .nothing _).1 hb
    exact ⟨this.2.2.2, this.2.2.1, this.2.1⟩

omit L in
/-- The name resolves to what has just been defined. -/
theorem define_resolves {s s' : CmdStores} {name n body cls replace isGlobal tok}
    (hd : s.define name n body cls replace isGlobal = some s')
    (ht : (s'.store (if isGlobal then .document else .loc)).get name (if isGlobal then .document else .loc) = some tok) :
    s'.resolveCommand cfg.builtin name = some tok := by
  unfold CmdStores.resolveCommand
  rcases define_cases hd with ⟨rfl, -, rfl⟩ | ⟨rfl, -, rfl⟩
  · simp only [if_true, CmdStores.store] at ht
    have hl : (s.loc.remove name).get name .loc = none := by
      unfold CustomCmds.get CustomCmds.remove
      simp only
      rw [lookup_filter_self]
    simp only [hl, Option.none_or, ht, Option.some_or]
  · simp only [Bool.false_eq_true, if_false, CmdStores.store] at ht
    simp only [ht, Option.some_or]

theorem wp_define {name n body cls replace isGlobal} (hg : GQ input q h) (hn : n ≤ 9)
    (hb : BodyOk h body) (hgl : isGlobal = true → L.noGlobal = false) :
    (LQ cfg input).Wp (define name n body cls replace isGlobal) q h fun ok _ _ => replace = true → ok = true := by
  cases hd : q.stores.define name n body cls replace (isGlobal || cfg.globalGroup) with
  | none =>
    have hf : replace = true → false = true := by
      rintro rfl
      unfold CmdStores.define at hd
      split at hd <;> simp at hd
    refine .ok (a := false) (s' := q) ?_ ⟨h, RQ.refl .., hg, hf⟩
    show define _ _ _ _ _ _ cfg q = _
    unfold define; simp only [hd]
  | some stores =>
    obtain ⟨items, hitems⟩ := hb.items
    have hst := hg.stores.define hn hb.recs hd
    have hop : DefState.run cfg.builtin ⟨q.stores, h⟩
        [.define name n items cls replace (isGlobal || cfg.globalGroup)] = some ⟨stores, h⟩ := by
      simp [DefState.run, DefState.apply, hitems, hd]
    have hquiet : DefOp.quiet cfg (.define name n items cls replace (isGlobal || cfg.globalGroup)) := by
      intro ht
      rcases Bool.or_eq_true _ _ ▸ ht with ht | ht
      · exact Or.inr (hgl ht)
      · exact Or.inl ht
    have hsame : RQ cfg q h { q with stores := stores } h ∧ GQ input { q with stores := stores } h := by
      have := hg.mapQueue (cfg := cfg) (f := id) (stores := stores) (h' := h) (fun _ _ => rfl) hg.toks
        (fun _ _ => Nat.le_refl _) (fun _ _ => Nat.le_refl _) hst ⟨_, by simpa using hquiet, hop⟩ (fun _ h => h)
      simpa using this
    -- the tokens in the queue which change
    have hmap : ∀ f : QueuedTok → QueuedTok,
        (∀ t ∈ q.queue, f t = t ∨ ∃ name tok, (nameOk name = true ∧ stores.resolveCommand cfg.builtin name = some tok) ∧
          f t = t.withToken tok ∧ (t.tok.isWs = false ∧ weight tok ≤ weight t.tok ∧ one tok ≤ one t.tok)) →
        ∃ h', RQ cfg q h { q with stores := stores, queue := q.queue.map f } h' ∧
          GQ input { q with stores := stores, queue := q.queue.map f } h' := by
      intro f hf
      obtain ⟨h', ops, hw, hr, hs, hx⟩ := lookups (cfg := cfg) stores hst q.queue h f
        (fun t ht => (hf t ht).imp id fun ⟨a, b, c, d, _⟩ => ⟨a, b, c.1, c.2, d⟩) hg.toks
      refine ⟨h', hg.mapQueue ?_ hx ?_ ?_ hst ⟨_, ?_, run_append' hop hr⟩ hs⟩
      · intro t ht
        rcases hf t ht with he | ⟨a, b, c, d, e⟩
        · rw [he]
        · rw [d, e.1]; exact (resolve_props c.2).1
      · intro t ht
        rcases hf t ht with he | ⟨a, b, c, d, e⟩
        · rw [he]; exact Nat.le_refl _
        · rw [d]; exact e.2.1
      · intro t ht
        rcases hf t ht with he | ⟨a, b, c, d, e⟩
        · rw [he]; exact Nat.le_refl _
        · rw [d]; exact e.2.2
      · intro op hop
        rcases List.mem_cons.1 hop with rfl | hop
        · exact hquiet
        · exact hw op hop
    have hone : ∀ tok : Token, one tok ≤ 1 := by intro tok; unfold one; split <;> omega
    cases replace with
    | true =>
      cases hget : (stores.store (if isGlobal || cfg.globalGroup then .document else .loc)).get name
          (if isGlobal || cfg.globalGroup then .document else .loc) with
      | none =>
        refine .ok (a := true) (s' := { q with stores := stores }) ?_ ⟨h, hsame.1, hsame.2, fun _ => rfl⟩
        show define _ _ _ _ _ _ cfg q = _
        unfold define; simp only [hd, if_true, hget]
      | some tok =>
        have hres := define_resolves (cfg := cfg) hd hget
        obtain ⟨n, cl, a, b, htok⟩ := customGet_ref hget
        obtain ⟨h', h1, h2⟩ := hmap (fun t => if t.name = some name then t.withToken tok else t) (by
          intro t ht
          by_cases hn : t.name = some name
          · right
            obtain ⟨hk, this⟩ := (hg.toks t ht).named _ hn
            refine ⟨name, tok, ⟨hk, hres⟩, if_pos hn, this.2, ?_, ?_⟩
            · rw [htok]; exact tokWeight_pos this.1
            · rw [one_pos this.1]; exact hone _
          · left; exact if_neg hn)
        refine .ok (a := true) (s' := _) ?_ ⟨h', h1, h2, fun _ => rfl⟩
        show define _ _ _ _ _ _ cfg q = _
        unfold define; simp only [hd, if_true, hget, resolveBufferedRedefined]
    | false =>
      obtain ⟨h', h1, h2⟩ := hmap (fun t =>
          match t.tok with
          | .unresolvedCommand name =>
            match stores.resolveCommand cfg.builtin name with
            | some tok => t.withToken tok
            | none => t
          | _ => t) (by
        intro t ht
        split
        · rename_i nm htok
          split
          · rename_i tok hr
            right
            have hk : nameOk nm = true := by
              rcases (hg.toks t ht).held with h1 | ⟨⟨_, _, _, _, _, -, h1⟩, -⟩
              · rw [htok] at h1
                simpa [plain, payloadOk] using h1
              · rw [htok] at h1; cases h1
            refine ⟨nm, tok, ⟨hk, hr⟩, rfl, by rw [htok]; rfl, ?_, ?_⟩
            · rw [htok]; exact (resolve_props hr).2.2
            · rw [htok]; exact hone _
          · left; rfl
        · left; rfl)
      refine .ok (a := true) (s' := _) ?_ ⟨h', h1, h2, fun _ => rfl⟩
      show define _ _ _ _ _ _ cfg q = _
      unfold define; simp only [hd, Bool.false_eq_true, if_false, resolveBufferedUnknown]
      rfl

end Verif

import Verif.Lemmas.RecArms2
/-! Expansions, and `parse_token` as a whole. -/
namespace Verif
open Model Spec Lexer' TokenQueue Logic

variable [L : Limits] {cfg : ParserConfig} {input : Str} {s s' : PState} {h h' : List Token} {α β : Type}
variable {b : Nat × Nat} {md : Mode} {c c' : Counters}

/-! ### Putting tokens in front -/

omit L in
theorem mu_push {w W} {q : TokenQueue} {ts : List QueuedTok} : mu w W (q.queueInFront ts) = wsum w ts + mu w W q := by
  unfold mu queueInFront updateNextNonWs
  simp only [wsum_append]
  omega

theorem GQ.push {q : TokenQueue} {ts : List QueuedTok} (hg : GQ input q h) (ht : ∀ t ∈ ts, QTokOk input h t) :
    GQ input (q.queueInFront ts) h := by
  refine ⟨hg.inv.push ts, hg.lex, ?_, hg.stores, hg.held⟩
  intro t htm
  rcases List.mem_append.1 htm with htm | htm
  · exact ht t htm
  · exact hg.toks t htm

theorem GP.push {ts : List QueuedTok} (hg : GP input s h) (ht : ∀ t ∈ ts, QTokOk input h t) :
    GP input { s with q := s.q.queueInFront ts } h := ⟨hg.q.push ht, hg.args, hg.label⟩

theorem RR.push {ts : List QueuedTok} : RR cfg s h { s with q := s.q.queueInFront ts } h :=
  ⟨⟨[], by simp, rfl, by simp [unfolds]⟩, fun _ h => h, .refl _, id⟩

omit L in
theorem at_push {ts : List QueuedTok} (hmd : mode s = md) (hc : ctr s = c)
    (hw : s.expansionsLeft < b.1 ∨ (s.expansionsLeft = b.1 ∧ wsum weight ts + MU s < b.2)) :
    At b md c { s with q := s.q.queueInFront ts } := by
  refine ⟨?_, hmd, hc⟩
  unfold Under MU
  simp only [mu_push]
  exact hw

/-- Put tokens in front and let them be read again. -/
theorem ev_push {ts : List QueuedTok} (hg : GP input s h) (hmd : mode s = md) (hc : ctr s = c)
    (ht : ∀ t ∈ ts, QTokOk input h t)
    (hw : s.expansionsLeft < b.1 ∨ (s.expansionsLeft = b.1 ∧ wsum weight ts + MU s < b.2)) :
    Ev cfg input (fun _ => (do
      St.modify fun s : PState => { s with q := s.q.queueInFront ts }
      return Parsed.expansion)) s h (Arm cfg b md c) :=
  Ev.modify_bind (h' := h) RR.push (Ev.pure (hg.push ht) (at_push hmd hc hw))

theorem queued_ok {t : Token} (ht : TokHeld h t) : QTokOk input h t.queued :=
  ⟨ht, spanOk_zero _, nofun⟩

omit L in
theorem sliceGet_mem {l : List α} {i j r} (h : sliceGet l i j = some r) : ∀ x ∈ r, x ∈ l := by
  unfold sliceGet at h
  split at h
  · cases h
    intro x hx
    exact List.mem_of_mem_drop (List.mem_of_mem_take hx)
  · cases h

omit L in
theorem wsum_take_drop {w : Token → Nat} {l : List QueuedTok} {i j} : wsum w ((l.drop i).take j) ≤ wsum w l := by
  have h1 : wsum w (l.drop i) ≤ wsum w l := by
    conv => rhs; rw [← List.take_append_drop i l, wsum_append]
    omega
  have h2 : wsum w ((l.drop i).take j) ≤ wsum w (l.drop i) := by
    conv => rhs; rw [← List.take_append_drop j (l.drop i), wsum_append]
    omega
  omega

omit L in
theorem get_wsum {a : CmdArgs} {i w} : wsum w (a.get i) ≤ wsum w a.tokens := by
  unfold CmdArgs.get
  simp only
  generalize (if i = 0 then 0 else (a.offsets[i - 1]?).getD 0) = st
  generalize (a.offsets[i]?).getD a.tokens.length = en
  unfold sliceGet
  split
  · exact wsum_take_drop
  · simp

omit L in
theorem get_mem {a : CmdArgs} {i} : ∀ x ∈ a.get i, x ∈ a.tokens := by
  unfold CmdArgs.get
  simp only
  generalize (if i = 0 then 0 else (a.offsets[i - 1]?).getD 0) = st
  generalize (a.offsets[i]?).getD a.tokens.length = en
  cases hs : sliceGet a.tokens st en with
  | none => simp
  | some r => exact sliceGet_mem hs

theorem argTokens_ok {l : List QueuedTok} {sp} (hs : SpanOk input sp) (hl : ∀ t ∈ l, QTokOk input h t) :
    ∀ t ∈ argTokens l sp, QTokOk input h t := by
  unfold argTokens
  split
  · intro t ht
    simp only [List.mem_cons, List.not_mem_nil, or_false] at ht
    rcases ht with rfl | rfl <;> exact ⟨Or.inl rfl, hs, nofun⟩
  · exact hl

omit L in
theorem argTokens_wsum {l : List QueuedTok} {sp} : wsum weight (argTokens l sp) ≤ max 2 (wsum weight l) := by
  unfold argTokens
  split
  · simp [weight]
  · omega

theorem ev_dots {ts : List Token} (hts : ts = Pre.CDOTS ∨ ts = Pre.DOTS) (hg : GP input s h) (hmd : mode s = md)
    (hc : ctr s = c) (hw : WithinT b .dots s) :
    Ev cfg input (fun _ => (do
      St.modify fun s : PState => { s with q := s.q.queueInFront (ts.map Token.queued) }
      return Parsed.expansion)) s h (Arm cfg b md c) := by
  have h3 : wsum weight (ts.map Token.queued) = 3 := by
    rcases hts with rfl | rfl <;> decide
  have hp : ∀ t ∈ ts, plain t = true := by
    rcases hts with rfl | rfl <;> exact fun t ht => List.all_eq_true.1 (rfl : List.all _ plain = true) t ht
  refine ev_push hg hmd hc ?_ ?_
  · intro t ht
    obtain ⟨x, hx, rfl⟩ := List.mem_map.1 ht
    exact queued_ok (.inl (hp x hx))
  · rw [h3]
    have h4 : weight .dots = 4 := rfl
    unfold WithinT at hw
    rw [h4] at hw
    rcases hw with hw | hw
    · exact .inl hw
    · exact .inr ⟨hw.1, by omega⟩

theorem ev_choice {o d t s' ss} {sp : Span} (hs : SpanOk input sp) (ht : TokHeld h (.mathChoiceInternal o d t s' ss))
    (hg : GP input s h) (hmd : mode s = md) (hc : ctr s = c) (hw : WithinT b (.mathChoiceInternal o d t s' ss) s) :
    Ev cfg input (fun _ => (do
      St.modify fun st : PState => { st with q := st.q.queueInFront [⟨Rec.selectChoice s.style d t s' ss, sp, none⟩] }
      return Parsed.expansion)) s h (Arm cfg b md c) := by
  have hp := plain_of_held ht (by intros; exact nofun)
  simp only [plain, Bool.and_eq_true] at hp
  refine ev_push hg hmd hc ?_ ?_
  · intro x hx
    rw [List.mem_singleton.1 hx]
    refine ⟨.inl ?_, hs, nofun⟩
    show plain (Rec.selectChoice s.style d t s' ss) = true
    unfold Rec.selectChoice
    split <;> simp [hp]
  · have h4 : weight (Rec.selectChoice s.style d t s' ss) + 1 ≤ weight (.mathChoiceInternal o d t s' ss) := by
      unfold Rec.selectChoice
      simp only [weight]
      split <;> omega
    rw [wsum_cons, wsum_nil]
    unfold WithinT at hw
    rcases hw with hw | hw
    · exact .inl hw
    · refine .inr ⟨hw.1, ?_⟩
      simp only
      omega

theorem ev_mathChoice {sp} (hs : SpanOk input sp) (hg : GP input s h) (ha : At b md c s) :
    Ev cfg input (fun _ => Rec.parseMathChoice sp) s h (Arm cfg b md c) := by
  refine Ev.get_bind ?_
  refine Ev.bind (Ev.of_wp (wp_readCmdArgs hg)) ?_
  rintro - s1 h1 - hg1 ⟨⟨h2, h3⟩, hr⟩
  have ha1 := ha.step hr
  have hok : ∀ t ∈ argTokens (s1.cmdArgs.get (Rec.styleIndex s.style)) sp, QTokOk input h1 t :=
    argTokens_ok hs fun t ht => hg1.args t (get_mem t ht)
  refine Ev.modify_bind (h' := h1) RR.push (Ev.pure (hg1.push hok) (at_push ha1.mode ha1.ctr ?_))
  have h4 := hr.exp
  have hu := ha.under
  unfold Under at hu
  rw [h4]
  rcases hu with hu | hu
  · exact .inl hu
  · refine .inr ⟨hu.1, ?_⟩
    have h5 := argTokens_wsum (l := s1.cmdArgs.get (Rec.styleIndex s.style)) (sp := sp)
    have h6 := get_wsum (a := s1.cmdArgs) (i := Rec.styleIndex s.style) (w := weight)
    omega

/-! ### Macros -/

theorem rr_count {left} (hl : s.expansionsLeft = left + 1) :
    RR cfg s h { s with expansionsLeft := left } h :=
  ⟨⟨[], by simp, rfl, by simp [unfolds, hl]⟩, fun _ h => h, .refl _, id⟩

omit L in
theorem count_zero {sp} (hl : s.expansionsLeft = 0) : countExpansion sp cfg s = .err (sp.err .tooManyExpansions) s := by
  simp only [countExpansion, bind, St.bind, St.get, hl]
  rfl

omit L in
theorem count_succ {sp left} (hl : s.expansionsLeft = left + 1) :
    countExpansion sp cfg s = .ok () { s with expansionsLeft := left } := by
  simp only [countExpansion, bind, St.bind, St.get, hl]
  rfl

/-- Count an expansion and read the arguments. -/
theorem ev_startExpansion {n sp} {f : Nat → Unit → P β} {Q : β → PState → List Token → Prop} (hg : GP input s h)
    (hmd : mode s = md) (hc : ctr s = c) (hs : SpanOk input sp)
    (hf : ∀ s' h', GP input s' h' → RP cfg { s with expansionsLeft := s.expansionsLeft - 1 } h s' h' →
      s'.expansionsLeft + 1 = s.expansionsLeft → mode s' = md → ctr s' = c →
      Ev cfg input (fun n => f n ()) s' h' Q) :
    Ev cfg input (fun k => countExpansion sp >>= fun _ => readCmdArgs n >>= f k) s h Q := by
  cases hl : s.expansionsLeft with
  | zero =>
    refine .err 0 (sp.err .tooManyExpansions) s h ?_ (RR.refl ..) (hs.err _)
    intro k _
    show St.bind (countExpansion sp) _ cfg s = _
    unfold St.bind
    rw [count_zero hl]
  | succ left =>
    rw [hl] at hf
    refine Ev.after (m' := fun k => readCmdArgs n >>= f k) (s' := { s with expansionsLeft := left }) ?_ (rr_count hl) ?_
    · intro k
      show St.bind (countExpansion sp) _ cfg s = _
      unfold St.bind
      rw [count_succ hl]
    · have hg1 : GP input { s with expansionsLeft := left } h := hg.own rfl rfl rfl
      refine Ev.bind (Ev.of_wp (wp_readCmdArgs hg1)) ?_
      rintro - s1 h1 - hg1 ⟨-, hr⟩
      refine hf s1 h1 hg1 hr ?_ (hr.mode.trans hmd) (hr.ctr.trans hc)
      rw [hr.exp]

theorem ev_expandCmd {n body sp} (hg : GP input s h) (ha : At b md c s) (hs : SpanOk input sp)
    (ht : TokHeld h (.customCmd n body)) :
    Ev cfg input (fun _ => expandCustomCmd n body sp) s h (Arm cfg b md c) := by
  have hp := plain_of_held ht (by intros; exact nofun)
  simp only [plain] at hp
  have hu : s.expansionsLeft ≤ b.1 := by have := ha.under; unfold Under at this; omega
  refine ev_startExpansion hg ha.mode ha.ctr hs ?_
  intro s1 h1 hg1 hr hl hmd hc
  have hb : s1.expansionsLeft < b.1 := by omega
  show Ev cfg input (fun _ => do
    St.modify fun s => { s with q := s.q.queueBodySubstituting body s.cmdArgs sp }
    return Parsed.expansion) s1 h1 _
  have hq : s1.q.queueBodySubstituting body s1.cmdArgs sp = s1.q.queueInFront
      (if body.isEmpty then [⟨.relax, sp, none⟩] else body.flatMap (substToken s1.cmdArgs sp)) := by
    unfold queueBodySubstituting queueEmptyBody
    split <;> rfl
  have hx := ev_push (cfg := cfg) (b := b) (ts := if body.isEmpty then [⟨.relax, sp, none⟩] else body.flatMap (substToken s1.cmdArgs sp)) hg1
    hmd hc ?_ (.inl hb)
  · refine Ev.after (s' := s1) (h' := h1) ?_ (RR.refl ..) hx
    intro k
    show Res.ok Parsed.expansion { s1 with q := s1.q.queueBodySubstituting body s1.cmdArgs sp } = _
    rw [hq]; rfl
  · intro t htm
    split at htm
    · rw [List.mem_singleton.1 htm]
      exact ⟨.inl rfl, hs, nofun⟩
    · obtain ⟨x, hx, hm⟩ := List.mem_flatMap.1 htm
      unfold substToken at hm
      split at hm
      · exact argTokens_ok hs (fun t ht => hg1.args t (get_mem t ht)) t hm
      · rename_i hna
        rw [List.mem_singleton.1 hm]
        refine queued_ok (.inl ((plainAll_mem (Bool.and_eq_true _ _ ▸ hp : _ ∧ _).2 x hx).resolve_right ?_))
        intro ha
        cases x <;> first | (cases ha; done) | exact hna _ rfl

/-- The tokens of a stored body, with names looked up -/
theorem substRecorded_ok {stores : CmdStores} (hst : StoresPlain stores) {args : CmdArgs} {sp : Span} (hs : SpanOk input sp)
    (body : List RecordedToken) (hargs : ∀ t ∈ args.tokens, QTokOk input h t)
    (hb : ∀ r ∈ body, RecOk r) (hin : ∀ t ∈ bodyTokens body, t ∈ h) :
    ∃ h' ops, (∀ op ∈ ops, DefOp.quiet cfg op) ∧ DefState.run cfg.builtin ⟨stores, h⟩ ops = some ⟨stores, h'⟩ ∧
      Sub h h' ∧ ∀ t ∈ body.flatMap (substRecorded cfg stores args sp), QTokOk input h' t := by
  induction body generalizing h with
  | nil => exact ⟨h, [], by simp, rfl, fun _ h => h, by simp⟩
  | cons r rs ih =>
    have hb1 := hb r (by simp)
    have hb2 : ∀ r ∈ rs, RecOk r := fun x hx => hb x (by simp [hx])
    have hin2 : ∀ t ∈ bodyTokens rs, t ∈ h := by
      intro t ht
      refine hin t ?_
      unfold bodyTokens at ht ⊢
      rw [List.mem_filterMap] at ht ⊢
      obtain ⟨a, ha, hb⟩ := ht
      exact ⟨a, List.mem_cons_of_mem _ ha, hb⟩
    have hsame : (∀ t ∈ substRecorded cfg stores args sp r, QTokOk input h t) →
        ∃ h' ops, (∀ op ∈ ops, DefOp.quiet cfg op) ∧ DefState.run cfg.builtin ⟨stores, h⟩ ops = some ⟨stores, h'⟩ ∧
      Sub h h' ∧ ∀ t ∈ (r :: rs).flatMap (substRecorded cfg stores args sp), QTokOk input h' t := by
      intro h1
      obtain ⟨h', ops, hw, hr, hs, hx⟩ := ih hargs hb2 hin2
      refine ⟨h', ops, hw, hr, hs, ?_⟩
      intro t ht
      rw [List.flatMap_cons] at ht
      rcases List.mem_append.1 ht with ht | ht
      · exact (h1 t ht).mono hs
      · exact hx t ht
    cases r with
    | token t =>
      refine hsame ?_
      intro x hx
      unfold substRecorded at hx
      split at hx
      · exact argTokens_ok hs (fun t ht => hargs t (get_mem t ht)) x hx
      · rename_i hna he
        cases he
        rw [List.mem_singleton.1 hx]
        refine queued_ok ?_
        rcases hb1 with hb1 | hb1 | hb1
        · exact .inl hb1
        · exact .inr ⟨hb1, hin _ (by simp [bodyTokens])⟩
        · exfalso
          cases t <;> first | (cases hb1; done) | exact hna _ rfl
      · rename_i he; cases he
    | commandName name =>
      cases hn : stores.resolveCommand cfg.builtin name with
      | none =>
        refine hsame ?_
        intro x hx
        simp only [substRecorded, hn, List.mem_singleton] at hx
        rw [hx]
        exact ⟨.inl hb1, hs, nofun⟩
      | some tok =>
        obtain ⟨h', ops, hw, hr, hs, hx⟩ := ih (h := tok :: h)
          (qtoks_mono (fun _ h => List.mem_cons_of_mem _ h) hargs) hb2 fun t ht => List.mem_cons_of_mem _ (hin2 t ht)
        refine ⟨h', .lookup name :: ops, ?_, ?_, fun t ht => hs _ (List.mem_cons_of_mem _ ht), ?_⟩
        · intro op hop
          rcases List.mem_cons.1 hop with rfl | hop
          · trivial
          · exact hw op hop
        · simp only [DefState.run, DefState.apply, hn, Option.map_some, Option.bind_some]
          exact hr
        · intro x hxm
          rw [List.flatMap_cons] at hxm
          rcases List.mem_append.1 hxm with hxm | hxm
          · simp only [substRecorded, hn, List.mem_singleton] at hxm
            rw [hxm]
            refine queued_ok ?_
            rcases resolve_cases hb1 hn with ⟨a, b, c, d, e, rfl⟩ | hb
            · exact .inr ⟨hst.ref hn, hs _ List.mem_cons_self⟩
            · exact .inl (builtinOkB_iff.1 hb).1
          · exact hx x hxm

theorem ev_expandRef {src n cl i j sp} (hg : GP input s h) (ha : At b md c s) (hs : SpanOk input sp)
    (ht : TokHeld h (.customCmdRef src n cl i j)) :
    Ev cfg input (fun _ => expandCustomCmdRef src n i j sp) s h (Arm cfg b md c) := by
  have hmem : Token.customCmdRef src n cl i j ∈ h := by
    rcases ht with ht | ht
    · simp [plain] at ht
    · exact ht.2
  have hu : s.expansionsLeft ≤ b.1 := by have := ha.under; unfold Under at this; omega
  cases hl : s.expansionsLeft with
  | zero =>
    refine .err 0 (sp.err .tooManyExpansions) s h ?_ (RR.refl ..) (hs.err _)
    intro k _
    show St.bind (countExpansion sp) _ cfg s = _
    unfold St.bind
    rw [count_zero hl]
  | succ left =>
    have hg0 : GP input { s with expansionsLeft := left } h := hg.own rfl rfl rfl
    rcases (wp_readCmdArgs (n := n) hg0).outcome with ⟨a, s1, h1, he, hr, hg1, -⟩ | ⟨e, s1, h1, he, hr, hgood⟩
    · have hrr : RR cfg s h s1 h1 := (rr_count hl).trans hr.rr
      have hmd := hr.mode.trans ha.mode
      have hc := hr.ctr.trans ha.ctr
      have hexp : s1.expansionsLeft = left := hr.exp
      cases hb : s1.q.stores.getBody src i j with
      | none =>
        exfalso
        have hin := hg1.q.held.held _ (hr.q.sub _ hmem)
        unfold CmdStores.getBody CustomCmds.body sliceGet at hb
        simp only [InRange] at hin
        split at hb
        · cases hb
        · rename_i hne
          exact hne (by cases src <;> exact hin)
      | some body =>
        obtain ⟨m, hm⟩ := List.getElem?_of_mem (hr.q.sub _ hmem)
        have hbok : ∀ r ∈ body, RecOk r := by
          intro r hrm
          refine hg1.q.stores.bodies src r ?_
          unfold CmdStores.getBody CustomCmds.body at hb
          have := sliceGet_mem hb r hrm
          cases src <;> exact this
        obtain ⟨h2, ops, hw, hrun, hsub, htoks⟩ := substRecorded_ok (cfg := cfg) (h := bodyTokens body ++ h1)
          hg1.q.stores hs body (args := s1.cmdArgs)
          (qtoks_mono (fun _ h => List.mem_append_right _ h) hg1.args) hbok
          (fun t ht => List.mem_append_left _ ht)
        have hrun2 : DefState.run cfg.builtin ⟨s1.q.stores, h1⟩ (.«unfold» m :: ops) = some ⟨s1.q.stores, h2⟩ := by
          simp only [DefState.run, DefState.apply, hm, heldBody, hb, Option.map_some, Option.bind_some]
          exact hrun
        have hsub' : Sub h1 h2 := fun t ht => hsub t (List.mem_append_right _ ht)
        have hq : s1.q.queueStoredBodySubstituting cfg src i j s1.cmdArgs sp = some (s1.q.queueInFront
            (if body.isEmpty then [⟨.relax, sp, none⟩] else body.flatMap (substRecorded cfg s1.q.stores s1.cmdArgs sp))) := by
          unfold queueStoredBodySubstituting queueEmptyBody
          simp only [hb]
          split <;> rfl
        have htoks' : ∀ t ∈ (if body.isEmpty then [⟨.relax, sp, none⟩] else
            body.flatMap (substRecorded cfg s1.q.stores s1.cmdArgs sp)), QTokOk input h2 t := by
          intro t htm
          split at htm
          · rw [List.mem_singleton.1 htm]
            exact ⟨.inl rfl, hs, nofun⟩
          · exact htoks t htm
        generalize (if body.isEmpty then [⟨.relax, sp, none⟩] else
            body.flatMap (substRecorded cfg s1.q.stores s1.cmdArgs sp)) = ts at hq htoks'
        refine .ok 0 Parsed.expansion { s1 with q := s1.q.queueInFront ts } h2 ?_ ?_ ?_ ?_
        · intro k _
          show St.bind (countExpansion sp) _ cfg s = _
          unfold St.bind
          rw [count_succ hl]
          show St.bind (readCmdArgs n) _ cfg _ = _
          unfold St.bind
          change readCmdArgs n cfg _ = _ at he
          rw [he]
          simp only [bind, St.bind, St.config, St.get, hq]
          rfl
        · obtain ⟨ops0, hw0, hrun0⟩ := hr.q.defs
          refine ⟨⟨ops0 ++ (.«unfold» m :: ops), ?_, ?_, ?_⟩, fun t ht => hsub' t (hr.q.sub t ht), hrr.count, hrr.plain⟩
          · intro op hop
            rcases List.mem_append.1 hop with hop | hop
            · exact quiet_within (hw0 op hop)
            · rcases List.mem_cons.1 hop with rfl | hop
              · exact ⟨trivial, trivial⟩
              · exact quiet_within (hw op hop)
          · exact run_append' hrun0 hrun2
          · rw [unfolds_append, unfolds_quiet hw0]
            simp only [unfolds, unfolds_quiet hw]
            omega
        · exact ⟨(⟨hg1.q.inv, hg1.q.lex, qtoks_mono hsub' hg1.q.toks, hg1.q.stores,
            run_inv (builtin_notRef cfg) hg1.q.held hrun2⟩ : GQ input s1.q h2).push htoks',
            qtoks_mono hsub' hg1.args, hg1.label⟩
        · exact at_push hmd hc (.inl (by omega))
    · refine .err 0 e s1 h1 ?_ ((rr_count hl).trans hr.rr) hgood
      intro k _
      show St.bind (countExpansion sp) _ cfg s = _
      unfold St.bind
      rw [count_succ hl]
      show St.bind (readCmdArgs n) _ cfg _ = _
      unfold St.bind
      change readCmdArgs n cfg _ = _ at he
      rw [he]

/-! ### `parse_one_token` and `parse_token` -/

omit L in
theorem WithinT.at {t : Token} (hw : WithinT b t s) (ht : t.isEoi = false) (hmd : mode s = md) (hc : ctr s = c) :
    At b md c s := by
  refine ⟨?_, hmd, hc⟩
  have := tokWeight_pos ht
  unfold WithinT at hw
  unfold Under
  rcases hw with hw | hw
  · exact .inl hw
  · exact .inr ⟨hw.1, by omega⟩

omit L in
theorem letterNode_ok {tf x u} (hx : LetterOk x) : LetterNode (letterNode tf x u) := by
  unfold letterNode
  split
  · exact .inl ⟨_, _, rfl, hx.transform⟩
  · exact .inl ⟨_, _, rfl, hx⟩
  · exact .inl ⟨_, _, rfl, hx⟩

namespace Hyp
variable (H : Hyp cfg input b)
include H

theorem arm {t : TokSpan} {pa prev next} (hg : GP input s h) (ht : TokOk input h t) (hk : Ready cfg t.tok)
    (hw : WithinT b t.tok s) (hmd : mode s = md) (hc : ctr s = c) :
    Ev cfg input (fun n => (parser n).parseArm t pa prev next) s h (Arm cfg b md c) := by
  obtain ⟨tok, sp⟩ := t
  obtain ⟨hheld, hs⟩ := ht
  simp only at hheld hs hk hw
  refine Ev.get_bind ?_
  have hat : tok.isEoi = false → At b md c s := fun he => hw.at he hmd hc
  have hop : ∀ (cl : Class) o a z l r, tok.isEoi = false → WeakFlags a →
      Ev cfg input (fun _ => pure (Parsed.node cl (.operator o a z l r))) s h (Arm cfg b md c) :=
    fun cl o a z l r he hf => Ev.pure (P' := Arm cfg b md c) hg ((hat he).made (.op hf))
  cases tok
  case eoi => exact Ev.fail hs
  all_goals replace hat := hat rfl
  all_goals replace hop := fun cl o a z l r => hop cl o a z l r rfl
  case digit x =>
    refine Ev.leaf hat (wp_parseDigit (digit_of_held hheld) hg) fun n s1 h1 _ hg1 ha1 hn => ?_
    refine Ev.pure hg1 (ha1.made ?_)
    rcases hn with hn | ⟨t, rfl, ht⟩
    · exact .letter hn
    · exact .leaf _ rfl ht rfl
  case letter x m => exact Ev.pure hg (hat.made (.letter (letterNode_ok (letter_of_held hheld))))
  case uprightLetter x => exact Ev.pure hg (hat.made (.letter (letterNode_ok (uprightLetter_of_held hheld))))
  case relation x => exact hop _ _ _ _ _ _ relationAttrs_weak
  case ord x => exact Ev.pure hg (hat.made ordNode_yield)
  case forceLargeOp x => exact H.largeOp hg hat
  case mathClass x => exact H.mathClass hg hat
  case whitespace => cases hk.notWs
  case mathOrTextMode x y => cases hk.oneMode
  case customCmdArg i => exact absurd (plain_of_held hheld (by intros; exact nofun)) nofun
  case verticalLineDef d =>
    refine Ev.fail hs fun _ => .inl ?_
    have := plain_of_held hheld (by intros; exact nofun)
    simpa [plain, payloadOk] using this
  case endEnv x => exact Ev.fail hs (by unfold Rec.unmatchedClose; split <;> nofun)
  case right => exact Ev.fail hs (by unfold Rec.unmatchedClose; split <;> nofun)
  case groupEnd => exact Ev.fail hs (by unfold Rec.unmatchedClose; split <;> nofun)
  all_goals first
    | exact hop _ _ _ _ _ _ (show WeakFlags OpAttrs.empty by decide)
    | exact Ev.fail hs
    | skip
  case enclose x =>
    refine Ev.bind (H.next hg hat) ?_
    rintro n s1 h1 - hg1 ⟨c1, ha1, hy1⟩
    exact Ev.pure hg1 ⟨c1, ha1, .wrap _ hy1 (.refl _) trivial rfl⟩
  case space x => exact Ev.pure hg (hat.made (.space _))
  case customSpace x =>
    refine Ev.leaf hat (wp_parseCustomSpace hg) ?_
    rintro n s1 h1 - hg1 ha1 ⟨l, rfl⟩
    exact Ev.pure hg1 (ha1.made (.space _))
  case kernOrSkip x =>
    refine Ev.leaf hat (wp_parseKernOrSkip hg hs.2) ?_
    rintro n s1 h1 - hg1 ha1 ⟨l, rfl⟩
    exact Ev.pure hg1 (ha1.made (.space _))
  case nonBreakingSpace => exact Ev.pure hg (hat.made (.leaf _ rfl trivial rfl))
  case sqrt => exact H.sqrt hg hat
  case frac x => exact H.frac hg hat
  case binom x => exact H.frac hg hat
  case genfrac => exact H.genfrac hg hat
  case accent o isOver attrs =>
    have hf : FlagsOk attrs := by
      have := plain_of_held hheld (by intros; exact nofun)
      exact flagsOkB_iff.1 (by simpa [plain, payloadOk] using this)
    refine Ev.bind (H.next hg hat) ?_
    rintro n s1 h1 - hg1 ⟨c1, ha1, hy1⟩
    refine Ev.pure hg1 ⟨c1, ha1, ?_⟩
    split
    · exact .wrap _ hy1 (.refl _) hf rfl
    · exact .wrap _ hy1 (.refl _) hf rfl
  case overset => exact H.overset hg hat
  case underset => exact H.overset hg hat
  case overUnderBrace x y => exact H.brace hg hat
  case op x => exact H.op hg hat
  case pseudoOperator x => exact H.pseudoOp hg hat
  case pseudoOperatorLimits x => exact H.pseudoOp hg hat
  case overlay x => exact H.overlay hg hat
  case transform x => exact H.transform hg hat
  case forceOpen x y => exact hop _ _ _ _ _ _ (show WeakFlags OpAttrs.formPrefix by decide)
  case forceClose x y => exact hop _ _ _ _ _ _ (show WeakFlags OpAttrs.formPostfix by decide)
  case groupBegin => exact H.group hg hat
  case opening x => exact Ev.pure hg (hat.made parenNode_yield)
  case closing x => exact Ev.pure hg (hat.made parenNode_yield)
  case left => exact H.left hg hat
  case middle => exact ev_middle hg hat
  case big x y => exact ev_big hg hat
  case beginEnv x => exact H.begin hg hat hs
  case operatorName x => exact H.operatorName hg hat
  case text x =>
    refine Ev.leaf hat (wp_extractText hg) fun n s1 h1 _ hg1 ha1 _ => ?_
    exact Ev.pure hg1 (ha1.made (.nodeVec textNodes_yield))
  case raiseBox =>
    refine Ev.leaf hat (wp_parseRaise hg) fun v s1 h1 _ hg1 ha1 _ => ?_
    refine Ev.leaf ha1 (wp_extractText hg1) fun n s2 h2 _ hg2 ha2 _ => ?_
    exact Ev.pure hg2 (ha2.made (.nodeVec textNodes_yield))
  case newColumn =>
    show Ev cfg input (fun _ => if s.env.allowColumns then _ else _) s h _
    split
    · exact Ev.pure hg (hat.made (.leaf _ rfl trivial rfl))
    · exact Ev.fail hs
  case newLine => exact ev_newLine hg hat hs
  case eqRef =>
    refine Ev.leaf hat (wp_parseStringLiteral hg) ?_
    rintro ⟨name, sp'⟩ s1 h1 - hg1 ha1 ⟨hn, -⟩
    exact Ev.pure hg1 (ha1.made (.leaf _ rfl hn rfl))
  case cramped => exact H.cramped hg hat
  case color => exact H.color hg hat hs
  case phantom x => exact H.phantom hg hat
  case style x => exact H.styled hg hat hs
  case underscore => exact H.scriptWithoutBase (.inl rfl) hg hat hs
  case circumflex => exact H.scriptWithoutBase (.inr (.inl rfl)) hg hat hs
  case prime k => exact H.scriptWithoutBase (.inr (.inr ⟨k, rfl⟩)) hg hat hs
  case dots =>
    refine ev_dots ?_ hg hmd hc hw
    split
    · exact .inl rfl
    · exact .inr rfl
  case prescript => exact H.prescript hg hat
  case sideset => exact H.sideset hg hat
  case xarrow x => exact H.xarrow hg hat
  case customCmd x y => exact ev_expandCmd hg hat hs hheld
  case customCmdRef a b c d e => exact ev_expandRef hg hat hs hheld
  case relax => exact Ev.pure hg (hat.made .emptyRow)
  case unresolvedCommand name =>
    exact Ev.pure hg (hat.made (.leaf _ rfl (hk.known name rfl) rfl))
  case mathChoice => exact ev_mathChoice hs hg hat
  case mathChoiceInternal o d t s' ss => exact ev_choice hs hheld hg hmd hc hw
  case internalStringLiteral x =>
    refine Ev.pure hg (hat.made ?_)
    unfold Rec.literalNode
    split
    · exact .leaf _ rfl trivial rfl
    · exact .leaf _ rfl trivial rfl

theorem oneToken {t : TokSpan} {pa prev} (hg : GP input s h) (ht : TokOk input h t) (hk : Ready cfg t.tok)
    (hw : WithinT b t.tok s) (hmd : mode s = md) (hc : ctr s = c) :
    Ev cfg input (fun n => (parser n).parseOneToken t pa prev) s h (Arm cfg b md c) := by
  refine Ev.bind (Ev.of_wp (wp_peekClass hg)) ?_
  rintro nx s1 h1 - hg1 ⟨-, hr⟩
  refine Ev.get_bind ?_
  have hw1 : WithinT b t.tok s1 := by
    have h1 := hr.exp
    have h2 := hr.q.mu
    unfold WithinT at *
    rw [h1]
    rcases hw with hw | hw
    · exact .inl hw
    · exact .inr ⟨hw.1, Nat.le_trans (Nat.add_le_add_left h2 _) hw.2⟩
  exact H.arm hg1 (ht.mono hr.q.sub) hk hw1 (hr.mode.trans hmd) (hr.ctr.trans hc)

/-- `parse_token` does what it should, if everything which needs less works. -/
theorem tokEv {t : TokSpan} (hg : GP input s h) (ht : TokOk input h t) (hk : Ready cfg t.tok)
    (hw : WithinT b t.tok s) : TokEv cfg input b t s h := by
  intro pa prev
  refine Ev.shift ?_
  show Ev cfg input (fun n => (parser n).parseTokenStep t pa prev) s h _
  refine Ev.bind (H.oneToken hg ht hk hw rfl rfl) ?_
  rintro p s1 h1 - hg1 hp
  cases p with
  | node cl n => exact Ev.pure hg1 hp
  | expansion =>
    refine H.readToken hg1 hp fun t2 s2 h2 _ hg2 ha2 _ ht2 => ?_
    exact ht2 pa prev

end Hyp
end Verif

import Verif.Lemmas.Absorb
/-! The invariant of the command stores. -/
namespace Verif
open Model Spec

theorem bodies_eq (s : CmdStores) :
    bodies s = withDoc s.config.tokens s.loc.tokens s.document.tokens := by
  funext src; cases src <;> rfl

/-- Definitions lie within the store. -/
def MapOk (c : CustomCmds) : Prop :=
  ∀ n d, c.map.get n = some d → d.start ≤ d.stop ∧ d.stop ≤ c.tokens.length

/-- The invariant of the stores. -/
structure StoresInv (s : CmdStores) : Prop where
  config : ConfigOk s.config
  range : ∀ src t, t ∈ bodies s src → InRange (bodies s) t
  docNoLocal : ∀ t ∈ s.document.tokens, NotLocal t
  locBackward : LocBackward s.loc.tokens
  docMap : MapOk s.document
  locMap : MapOk s.loc

/-- The invariant of a session. -/
structure DefInv (s : DefState) : Prop where
  stores : StoresInv s.stores
  held : ∀ t ∈ s.held, InRange (bodies s.stores) (.token t)

theorem lookup_filter_ne {V} (m : StrMap V) (k k' : Str) (h : k' ≠ k) :
    StrMap.get (StrMap.remove m k) k' = StrMap.get m k' := by
  induction m with
  | nil => rfl
  | cons e m ih =>
    obtain ⟨x, v⟩ := e
    unfold StrMap.get StrMap.remove at *
    by_cases hx : x = k
    · subst hx
      rw [List.filter_cons_of_neg (by simp), ih, List.lookup_cons]
      have : (k' == x) = false := by simpa using h
      rw [this]
    · rw [List.filter_cons_of_pos (by simpa using hx), List.lookup_cons, List.lookup_cons, ih]

theorem lookup_filter_self {V} (m : StrMap V) (k : Str) :
    StrMap.get (StrMap.remove m k) k = none := by
  induction m with
  | nil => rfl
  | cons e m ih =>
    obtain ⟨x, v⟩ := e
    unfold StrMap.get StrMap.remove at *
    by_cases hx : x = k
    · subst hx
      rw [List.filter_cons_of_neg (by simp), ih]
    · rw [List.filter_cons_of_pos (by simpa using hx), List.lookup_cons, ih]
      have : (k == x) = false := by simpa using (Ne.symm hx)
      rw [this]

theorem get_insert {V} (m : StrMap V) (k k' : Str) (v : V) :
    StrMap.get (StrMap.insert m k v) k' = if k' = k then some v else StrMap.get m k' := by
  unfold StrMap.get StrMap.insert
  rw [List.lookup_cons]
  by_cases h : k' = k
  · simp [h]
  · have : (k' == k) = false := by simpa using h
    rw [this, if_neg h]

/-- What a successful definition does. -/
theorem define_cases {s s' : CmdStores} {name numArgs body cls replace isGlobal}
    (h : s.define name numArgs body cls replace isGlobal = some s') :
    (isGlobal = true ∧ (replace = true ∨ s.document.map.get name = none) ∧ s' = { s with
      document := s.document.insertOrReplaceAndCopyLocal s.loc name numArgs body cls,
      loc := s.loc.remove name }) ∨
    (isGlobal = false ∧ (replace = true ∨ s.loc.map.get name = none) ∧ s' = { s with
      loc := s.loc.insertOrReplace name numArgs body cls }) := by
  unfold CmdStores.define at h
  cases isGlobal <;> cases replace <;>
    simp only [if_true, Bool.false_eq_true, if_false] at h
  · unfold CustomCmds.insert at h
    split at h
    · simp at h
    · rename_i h3
      simp at h
      subst h
      refine Or.inr ⟨rfl, Or.inr ?_, rfl⟩
      simpa [StrMap.contains] using h3
  · cases h
    exact Or.inr ⟨rfl, Or.inl rfl, rfl⟩
  · unfold CustomCmds.insertAndCopyLocal at h
    split at h
    · simp at h
    · rename_i h3
      simp at h
      subst h
      refine Or.inl ⟨rfl, Or.inr ?_, rfl⟩
      simpa [StrMap.contains] using h3
  · cases h
    exact Or.inl ⟨rfl, Or.inl rfl, rfl⟩

theorem StoresInv.range' {s : CmdStores} (h : StoresInv s) (src t)
    (ht : t ∈ withDoc s.config.tokens s.loc.tokens s.document.tokens src) :
    InRange (withDoc s.config.tokens s.loc.tokens s.document.tokens) t := by
  rw [← bodies_eq] at *
  exact h.range src t ht

/-- A definition whose body has no dangling references preserves the invariant, extends the
stores, and gives the name the meaning of the body; other names are found where they were. -/
theorem define_spec {s s' : CmdStores} {name numArgs body cls replace isGlobal}
    (inv : StoresInv s) (hbody : ∀ t ∈ body, InRange (bodies s) t)
    (h : s.define name numArgs body cls replace isGlobal = some s') :
    StoresInv s' ∧ s'.config = s.config ∧ (∀ src, bodies s src <+: bodies s' src) ∧
    (isGlobal = true → s'.loc.tokens = s.loc.tokens ∧
      (∀ k t, NotLocal t → InRange (bodies s) t → meaning (bodies { s' with loc := {} }) k t =
        meaning (bodies { s with loc := {} }) k t)) ∧
    (isGlobal = false → s'.document = s.document) ∧
    (∃ src start stop, src = (if isGlobal then CmdSource.document else CmdSource.loc) ∧
      (s'.store src).map.get name = some ⟨numArgs, cls, start, stop⟩ ∧
      start ≤ stop ∧ stop ≤ (bodies s' src).length ∧
      ∀ k, (((bodies s' src).drop start).take (stop - start)).map (meaning (bodies s') k) =
        body.map (meaning (bodies s) k)) ∧
    (isGlobal = true → s'.loc.map.get name = none) ∧
    (∀ n, n ≠ name → s'.document.map.get n = s.document.map.get n ∧
      s'.loc.map.get n = s.loc.map.get n) := by
  rcases define_cases h with ⟨rfl, -, rfl⟩ | ⟨rfl, -, rfl⟩
  · have hb' : ∀ t ∈ body, InRange (withDoc s.config.tokens s.loc.tokens s.document.tokens) t := by
      rw [← bodies_eq]; exact hbody
    obtain ⟨hmap, hpre, hs, he, hlen, htok, hmean⟩ := absorb_spec s.config.tokens s.document s.loc
      body inv.locBackward inv.range' inv.docNoLocal hb'
    generalize hA : s.document.absorb s.loc body = A at *
    obtain ⟨D, st, en⟩ := A
    simp only at hmap hpre hs he hlen htok hmean
    have hdoc : s.document.insertOrReplaceAndCopyLocal s.loc name numArgs body cls =
        ⟨D.tokens, D.map.insert name ⟨numArgs, cls, st, en⟩⟩ := by
      unfold CustomCmds.insertOrReplaceAndCopyLocal
      rw [hA]; rfl
    rw [hdoc]
    generalize hs' : CmdStores.mk s.config ⟨D.tokens, D.map.insert name ⟨numArgs, cls, st, en⟩⟩
        (s.loc.remove name) = s'
    have hbd : bodies s' = withDoc s.config.tokens s.loc.tokens D.tokens := by
      rw [← hs']; funext src; cases src <;> rfl
    have hpre' : ∀ src, bodies s src <+: bodies s' src := by
      intro src
      rw [hbd]
      cases src
      · exact List.prefix_refl _
      · exact hpre
      · exact List.prefix_refl _
    have hlen' : ∀ src, (bodies s src).length ≤ (bodies s' src).length :=
      fun src => (hpre' src).length_le
    have hrange : ∀ src t, t ∈ bodies s' src → InRange (bodies s') t := by
      intro src t ht
      rw [hbd] at ht
      cases src with
      | config => exact (inv.range .config t ht).mono hlen'
      | loc => exact (inv.range .loc t ht).mono hlen'
      | document => rw [hbd]; exact (htok t ht).2
    refine ⟨⟨?_, hrange, ?_, ?_, ?_, ?_⟩, by rw [← hs'], hpre', ?_, by simp, ?_, ?_, ?_⟩
    · rw [← hs']; exact inv.config
    · rw [← hs']; exact fun t ht => (htok t ht).1
    · rw [← hs']; exact inv.locBackward
    · rw [← hs']
      intro n d hn
      rw [get_insert] at hn
      split at hn
      · cases hn
        simp only
        omega
      · rw [hmap] at hn
        have := inv.docMap n d hn
        have := hpre.length_le
        simp only
        omega
    · rw [← hs']
      intro n d hn
      by_cases hnn : n = name
      · subst hnn
        have := lookup_filter_self s.loc.map n
        rw [CustomCmds.remove] at hn
        simp only [this] at hn
        cases hn
      · rw [CustomCmds.remove] at hn
        simp only [lookup_filter_ne _ _ _ hnn] at hn
        exact inv.locMap n d hn
    · intro _
      refine ⟨by rw [← hs']; rfl, ?_⟩
      intro k t hnl ht
      have hN : ∀ src, src ≠ CmdSource.loc → ∀ t, t ∈ bodies s src → NotLocal t := by
        intro src hsrc t ht
        cases src
        · exact notLocal_of_notRef (inv.config.noRefs t ht)
        · exact inv.docNoLocal t ht
        · exact absurd rfl hsrc
      have hN' : ∀ src, src ≠ CmdSource.loc → ∀ t, t ∈ bodies s' src → NotLocal t := by
        intro src hsrc t ht
        rw [hbd] at ht
        cases src
        · exact notLocal_of_notRef (inv.config.noRefs t ht)
        · exact (htok t ht).1
        · exact absurd rfl hsrc
      rw [meaning_local (st := bodies s') (st' := bodies { s' with loc := {} })
          (by intro src hsrc; cases src <;> first | rfl | exact absurd rfl hsrc) hN' k t hnl]
      rw [meaning_local (st := bodies s) (st' := bodies { s with loc := {} })
          (by intro src hsrc; cases src <;> first | rfl | exact absurd rfl hsrc) hN k t hnl]
      exact meaning_extend hpre' inv.range k t ht
    · refine ⟨.document, st, en, by simp, ?_, by omega, ?_, ?_⟩
      · rw [← hs']
        show StrMap.get (StrMap.insert D.map name _) name = _
        rw [get_insert, if_pos rfl]
      · rw [hbd]; exact hlen
      · intro k
        rw [hbd, bodies_eq s]
        exact hmean k
    · intro _
      rw [← hs']
      exact lookup_filter_self _ _
    · intro n hn
      rw [← hs']
      refine ⟨?_, lookup_filter_ne _ _ _ hn⟩
      show StrMap.get (StrMap.insert D.map name _) n = _
      rw [get_insert, if_neg hn, hmap]
  · generalize hs' : CmdStores.mk s.config s.document
        (s.loc.insertOrReplace name numArgs body cls) = s'
    have hbd : bodies s' = withDoc s.config.tokens (s.loc.tokens ++ body) s.document.tokens := by
      rw [← hs']; funext src; cases src <;> rfl
    have hpre' : ∀ src, bodies s src <+: bodies s' src := by
      intro src
      rw [hbd]
      cases src
      · exact List.prefix_refl _
      · exact List.prefix_refl _
      · exact List.prefix_append _ _
    have hlen' : ∀ src, (bodies s src).length ≤ (bodies s' src).length :=
      fun src => (hpre' src).length_le
    have hrange : ∀ src t, t ∈ bodies s' src → InRange (bodies s') t := by
      intro src t ht
      rw [hbd] at ht
      cases src with
      | config => exact (inv.range .config t ht).mono hlen'
      | document => exact (inv.range .document t ht).mono hlen'
      | loc =>
        rcases List.mem_append.1 (show t ∈ s.loc.tokens ++ body from ht) with h | h
        · exact (inv.range .loc t h).mono hlen'
        · exact (hbody t h).mono hlen'
    refine ⟨⟨?_, hrange, ?_, ?_, ?_, ?_⟩, by rw [← hs'], hpre', by simp, ?_, ?_, by simp, ?_⟩
    · rw [← hs']; exact inv.config
    · rw [← hs']; exact inv.docNoLocal
    · rw [← hs']
      intro p n c st en hp
      have hp' : (s.loc.tokens ++ body)[p]? = some (.token (.customCmdRef .loc n c st en)) := hp
      by_cases hlt : p < s.loc.tokens.length
      · rw [List.getElem?_append_left hlt] at hp'
        exact inv.locBackward p n c st en hp'
      · rw [List.getElem?_append_right (by omega)] at hp'
        have hr : st ≤ en ∧ en ≤ s.loc.tokens.length := hbody _ (List.mem_of_getElem? hp')
        omega
    · rw [← hs']; exact inv.docMap
    · rw [← hs']
      intro n d hn
      have hn' : StrMap.get (StrMap.insert s.loc.map name ⟨numArgs, cls, s.loc.tokens.length,
        (s.loc.tokens ++ body).length⟩) n = some d := hn
      rw [get_insert] at hn'
      show _ ∧ _ ≤ (s.loc.tokens ++ body).length
      split at hn'
      · cases hn'
        simp
      · have := inv.locMap n d hn'
        simp; omega
    · intro _; rw [← hs']
    · refine ⟨.loc, s.loc.tokens.length, (s.loc.tokens ++ body).length, by simp, ?_, by simp, ?_, ?_⟩
      · rw [← hs']
        show StrMap.get (StrMap.insert s.loc.map name _) name = _
        rw [get_insert, if_pos rfl]
      · rw [hbd]; exact Nat.le_refl _
      · intro k
        have : bodies s' .loc = s.loc.tokens ++ body := by rw [hbd]; rfl
        rw [this, List.drop_left, List.length_append, Nat.add_sub_cancel_left, List.take_length]
        apply List.map_congr_left
        intro t ht
        exact meaning_extend hpre' inv.range k t (hbody t ht)
    · intro n hn
      rw [← hs']
      refine ⟨rfl, ?_⟩
      show StrMap.get (StrMap.insert s.loc.map name _) n = _
      rw [get_insert, if_neg hn]

theorem resolve_inRange {builtin s name t} (hb : BuiltinOk builtin) (inv : StoresInv s)
    (h : s.resolveCommand builtin name = some t) : InRange (bodies s) (.token t) := by
  unfold CmdStores.resolveCommand CustomCmds.get at h
  cases hl : s.loc.map.get name with
  | some d =>
    rw [hl] at h; simp at h; subst h
    exact inv.locMap name d hl
  | none =>
    rw [hl] at h
    cases hd : s.document.map.get name with
    | some d =>
      rw [hd] at h; simp at h; subst h
      exact inv.docMap name d hd
    | none =>
      rw [hd] at h
      cases hc : s.config.map.get name with
      | some d =>
        rw [hc] at h; simp at h; subst h
        exact inv.config.inside name d hc
      | none =>
        rw [hc] at h; simp at h
        exact inRange_of_notRef (hb _ _ h)

theorem recordedBody_inRange {held body b} {st : CmdSource → List RecordedToken}
    (hh : ∀ t ∈ held, InRange st (.token t)) (h : recordedBody held body = some b) :
    ∀ t ∈ b, InRange st t := by
  unfold recordedBody at h
  induction body generalizing b with
  | nil => simp at h; subst h; simp
  | cons i is ih =>
    rw [List.mapM_cons] at h
    cases hi : i.recorded held with
    | none => rw [hi] at h; simp at h
    | some t =>
      cases hr : is.mapM (BodyItem.recorded held) with
      | none => rw [hi, hr] at h; simp at h
      | some ts =>
        rw [hi, hr] at h; simp at h; subst h
        intro x hx
        rcases List.mem_cons.1 hx with rfl | hx
        · cases i with
          | name n => simp [BodyItem.recorded] at hi; subst hi; trivial
          | plain t' =>
            simp only [BodyItem.recorded] at hi
            split at hi
            · rename_i hn; cases hi; exact inRange_of_notRef hn
            · cases hi
          | lookedUp j =>
            simp only [BodyItem.recorded, Option.map_eq_some_iff] at hi
            obtain ⟨t', ht', rfl⟩ := hi
            exact hh t' (List.mem_of_getElem? ht')
        · exact ih hr x hx

theorem inRange_congr {s s' : CmdStores} {t} (hpre : ∀ src, bodies s src <+: bodies s' src)
    (h : InRange (bodies s) t) : InRange (bodies s') t :=
  h.mono (fun src => (hpre src).length_le)

theorem StoresInv.endSnippet {s : CmdStores} (inv : StoresInv s) :
    StoresInv { s with loc := {} } := by
  have hr : ∀ src t, src ≠ CmdSource.loc → t ∈ bodies s src → InRange (bodies { s with loc := {} }) t := by
    intro src t hsrc ht
    have h1 := inv.range src t ht
    have hnl : NotLocal t := by
      cases src
      · exact notLocal_of_notRef (inv.config.noRefs t ht)
      · exact inv.docNoLocal t ht
      · exact absurd rfl hsrc
    unfold InRange at *
    split
    · rename_i src' _ _ _ _
      cases src'
      · exact h1
      · exact h1
      · exact hnl.elim
    · trivial
  refine ⟨inv.config, ?_, inv.docNoLocal, ?_, inv.docMap, ?_⟩
  · intro src t ht
    cases src with
    | config => exact hr .config t (by simp) ht
    | document => exact hr .document t (by simp) ht
    | loc => exact absurd ht (List.not_mem_nil)
  · intro p n c a b h; simp at h
  · intro n d h; simp [StrMap.get] at h

theorem StoresInv.reset {s : CmdStores} (inv : StoresInv s) :
    StoresInv { s with document := s.document.clear, loc := {} } := by
  refine ⟨inv.config, ?_, by simp [CustomCmds.clear], ?_, ?_, ?_⟩
  · intro src t ht
    cases src with
    | config => exact inRange_of_notRef (inv.config.noRefs t ht)
    | document => exact absurd ht (List.not_mem_nil)
    | loc => exact absurd ht (List.not_mem_nil)
  · intro p n c a b h; simp at h
  · intro n d h; simp [StrMap.get, CustomCmds.clear] at h
  · intro n d h; simp [StrMap.get] at h

theorem mem_bodyTokens {body : List RecordedToken} {t} : t ∈ bodyTokens body ↔ .token t ∈ body := by
  unfold bodyTokens
  rw [List.mem_filterMap]
  constructor
  · rintro ⟨x, hx, h⟩
    cases x with
    | token t' => cases h; exact hx
    | commandName n => cases h
  · intro h; exact ⟨_, h, rfl⟩

theorem bodies_store (s : CmdStores) (src) : (s.store src).tokens = bodies s src := by cases src <;> rfl

theorem getBody_mem {s : CmdStores} {src a b body} (h : s.getBody src a b = some body) :
    ∀ t ∈ body, t ∈ bodies s src := by
  unfold CmdStores.getBody CustomCmds.body sliceGet at h
  rw [bodies_store] at h
  split at h
  · cases h
    intro t ht
    exact List.mem_of_mem_drop (List.mem_of_mem_take ht)
  · cases h

theorem heldBody_mem {s : CmdStores} {t body} (h : heldBody s t = some body) :
    ∃ src, ∀ t ∈ body, t ∈ bodies s src := by
  unfold heldBody at h
  split at h
  · exact ⟨_, getBody_mem h⟩
  · cases h

theorem heldBody_inRange {s : CmdStores} {t body} (inv : StoresInv s) (h : heldBody s t = some body) :
    ∀ t ∈ bodyTokens body, InRange (bodies s) (.token t) := by
  obtain ⟨src, hm⟩ := heldBody_mem h
  intro x hx
  exact inv.range src _ (hm _ (mem_bodyTokens.1 hx))

theorem apply_inv {builtin s op s'} (hb : BuiltinOk builtin) (inv : DefInv s)
    (h : DefState.apply builtin s op = some s') : DefInv s' := by
  cases op with
  | lookup name =>
    simp only [DefState.apply, Option.map_eq_some_iff] at h
    obtain ⟨t, ht, rfl⟩ := h
    refine ⟨inv.stores, ?_⟩
    intro x hx
    rcases List.mem_cons.1 hx with rfl | hx
    · exact resolve_inRange hb inv.stores ht
    · exact inv.held x hx
  | define name numArgs body cls replace isGlobal =>
    simp only [DefState.apply, Option.bind_eq_some_iff, Option.map_eq_some_iff] at h
    obtain ⟨b, hbody, st, hst, rfl⟩ := h
    obtain ⟨inv', -, hpre, -⟩ := define_spec inv.stores (recordedBody_inRange inv.held hbody) hst
    exact ⟨inv', fun t ht => inRange_congr hpre (inv.held t ht)⟩
  | «unfold» i =>
    simp only [DefState.apply, Option.bind_eq_some_iff, Option.map_eq_some_iff] at h
    obtain ⟨t, ht, body, hbody, rfl⟩ := h
    refine ⟨inv.stores, ?_⟩
    intro x hx
    rcases List.mem_append.1 hx with hx | hx
    · exact heldBody_inRange inv.stores hbody x hx
    · exact inv.held x hx
  | endSnippet =>
    cases h
    exact ⟨inv.stores.endSnippet, by simp⟩
  | reset =>
    cases h
    exact ⟨inv.stores.reset, by simp⟩

theorem run_inv {builtin s ops s'} (hb : BuiltinOk builtin) (inv : DefInv s)
    (h : DefState.run builtin s ops = some s') : DefInv s' := by
  induction ops generalizing s with
  | nil => cases h; exact inv
  | cons op ops ih =>
    simp only [DefState.run, Option.bind_eq_some_iff] at h
    obtain ⟨s1, h1, h2⟩ := h
    exact ih (apply_inv hb inv h1) h2

theorem initial_inv {config} (hc : ConfigOk config) :
    DefInv { stores := { config }, held := [] } := by
  refine ⟨⟨hc, ?_, by simp, ?_, ?_, ?_⟩, by simp⟩
  · intro src t ht
    cases src with
    | config => exact inRange_of_notRef (hc.noRefs t ht)
    | document => exact absurd ht (List.not_mem_nil)
    | loc => exact absurd ht (List.not_mem_nil)
  · intro p n c a b h; simp at h
  · intro n d h; simp [StrMap.get] at h
  · intro n d h; simp [StrMap.get] at h

theorem reachable_inv {builtin config s} (hb : BuiltinOk builtin) (hc : ConfigOk config)
    (h : DefReachable builtin config s) : DefInv s := by
  obtain ⟨ops, h⟩ := h
  exact run_inv hb (initial_inv hc) h

end Verif

import Verif.Lemmas.Meaning
/-! `absorb`: termination, and what it does to the meaning of tokens. -/
namespace Verif
open Model Spec

/-- The references of a local store point backwards. -/
def LocBackward (toks : List RecordedToken) : Prop :=
  ∀ (p n : Nat) (c : Option Class) (s e : Nat), toks[p]? = some (.token (.customCmdRef .loc n c s e)) → s ≤ e ∧ e ≤ p

/-- The local references of a token lie within a store of the given length. -/
def LocBelow (len : Nat) : RecordedToken → Prop
  | .token (.customCmdRef .loc _ _ s e) => s ≤ e ∧ e ≤ len
  | _ => True

open CustomCmds

theorem absorbWeights_prefix (acc ts) : acc <+: absorbWeights acc ts := by
  induction ts generalizing acc with
  | nil => exact List.prefix_refl _
  | cons t ts ih =>
    exact (List.prefix_append acc _).trans (ih _)

theorem absorbWeights_length (acc ts) :
    (absorbWeights acc ts).length = acc.length + ts.length := by
  induction ts generalizing acc with
  | nil => rfl
  | cons t ts ih => rw [absorbWeights, ih]; simp; omega

theorem sliceGet_prefix {α} {l l' : List α} {s e : Nat} (hp : l <+: l') (he : e ≤ l.length) :
    sliceGet l' s e = sliceGet l s e := by
  obtain ⟨u, rfl⟩ := hp
  unfold sliceGet
  by_cases h : s ≤ e
  · rw [if_pos ⟨h, by simp; omega⟩, if_pos ⟨h, he⟩]
    rw [List.drop_append_of_le_length (by omega), List.take_append_of_le_length (by simp; omega)]
  · rw [if_neg (by omega), if_neg (by omega)]

theorem absorbWeight_prefix {l l' : List Nat} {t} (hp : l <+: l') (ht : LocBelow l.length t) :
    absorbWeight l' t = absorbWeight l t := by
  unfold absorbWeight
  split
  · rw [sliceGet_prefix hp ht.2]
  · rfl

theorem absorbWeights_get (acc ts) (h : ∀ p n c s e,
      ts[p]? = some (.token (.customCmdRef .loc n c s e)) → s ≤ e ∧ e ≤ acc.length + p) (p : Nat)
    (hp : p < ts.length) :
    (absorbWeights acc ts)[acc.length + p]? =
      some (absorbWeight (absorbWeights acc ts) ts[p]) := by
  induction ts generalizing acc p with
  | nil => simp at hp
  | cons t ts ih =>
    have hb : LocBelow acc.length t := by
      unfold LocBelow
      split
      · exact h 0 _ _ _ _ rfl
      · trivial
    have hpre := absorbWeights_prefix (acc ++ [absorbWeight acc t]) ts
    cases p with
    | zero =>
      have hpre' : acc <+: absorbWeights acc (t :: ts) := absorbWeights_prefix _ _
      rw [List.getElem_cons_zero, absorbWeight_prefix hpre' hb]
      obtain ⟨u, hu⟩ := hpre
      rw [absorbWeights, ← hu]
      simp
    | succ p =>
      have := ih (acc ++ [absorbWeight acc t]) (by
        intro p n c s e hh
        have := h (p+1) n c s e (by simpa using hh)
        simp; omega) p (by simpa using hp)
      rw [absorbWeights, List.getElem_cons_succ, ← this]
      congr 1
      simp; omega

/-- Weight of a list of tokens. -/
def weightSum (loc : CustomCmds) (ts : List RecordedToken) : Nat :=
  (ts.map (absorbWeight (absorbWeights [] loc.tokens))).sum

theorem weightSum_append (loc a b) :
    weightSum loc (a ++ b) = weightSum loc a + weightSum loc b := by
  simp [weightSum]

theorem weights_eq (loc : CustomCmds) (hb : LocBackward loc.tokens) :
    absorbWeights [] loc.tokens =
      loc.tokens.map (absorbWeight (absorbWeights [] loc.tokens)) := by
  apply List.ext_getElem?
  intro i
  by_cases h : i < loc.tokens.length
  · have := absorbWeights_get [] loc.tokens (by
      intro p n c s e hh; have := hb p n c s e hh; simpa using this) i h
    simp only [List.length_nil, Nat.zero_add] at this
    rw [this, List.getElem?_map, List.getElem?_eq_getElem h]
    rfl
  · rw [List.getElem?_eq_none (by rw [absorbWeights_length]; simp; omega),
      List.getElem?_eq_none (by simp; omega)]

theorem sliceGet_map {α β} (f : α → β) (l : List α) (s e : Nat) :
    sliceGet (l.map f) s e = (sliceGet l s e).map (List.map f) := by
  unfold sliceGet
  rw [List.length_map]
  by_cases h : s ≤ e ∧ e ≤ l.length
  · rw [if_pos h, if_pos h]; simp [List.map_drop, List.map_take]
  · rw [if_neg h, if_neg h]; rfl

/-- The weight of a local reference is one more than that of the body. -/
theorem weight_ref (loc : CustomCmds) (hb : LocBackward loc.tokens) (n c s e) :
    absorbWeight (absorbWeights [] loc.tokens) (.token (.customCmdRef .loc n c s e)) =
      1 + weightSum loc ((loc.body s e).getD []) := by
  conv => lhs; rw [absorbWeight, weights_eq loc hb, sliceGet_map]
  rw [CustomCmds.body]
  cases sliceGet loc.tokens s e <;> rfl

theorem weight_pos (acc t) : 0 < absorbWeight acc t := by
  unfold absorbWeight; split <;> omega

/-- What a step of the loop does to the vector. -/
theorem absorbStep_cases (loc : CustomCmds) (T : List RecordedToken) (i : Nat) (hi : i < T.length) :
    (∃ n c s e, T[i] = .token (.customCmdRef .loc n c s e) ∧
      absorbStep loc T i = (T ++ (loc.body s e).getD []).set i
        (.token (.customCmdRef .document n c T.length
          (T.length + ((loc.body s e).getD []).length)))) ∨
    (NotLocal T[i] ∧ absorbStep loc T i = T) := by
  by_cases h : ∃ n c s e, T[i] = .token (.customCmdRef .loc n c s e)
  · obtain ⟨n, c, s, e, h⟩ := h
    refine Or.inl ⟨n, c, s, e, h, ?_⟩
    unfold absorbStep
    rw [List.getElem?_eq_getElem hi, h]
    simp only
    cases hb : loc.body s e <;> simp
  · refine Or.inr ⟨?_, ?_⟩
    · unfold NotLocal
      split
      · rename_i heq; exact h ⟨_, _, _, _, heq⟩
      · trivial
    · unfold absorbStep
      rw [List.getElem?_eq_getElem hi]
      split
      · rename_i heq; simp at heq; exact absurd ⟨_, _, _, _, heq⟩ h
      · rfl

theorem drop_set_succ {α} (l : List α) (i : Nat) (x : α) : (l.set i x).drop (i+1) = l.drop (i+1) := by
  rw [List.drop_set]; simp

theorem absorbStep_length (loc : CustomCmds) (T : List RecordedToken) (i : Nat) :
    T.length ≤ (absorbStep loc T i).length := by
  by_cases hi : i < T.length
  · rcases absorbStep_cases loc T i hi with ⟨n, c, s, e, -, h⟩ | ⟨-, h⟩
    · rw [h]; simp
    · rw [h]; exact Nat.le_refl _
  · unfold absorbStep
    rw [List.getElem?_eq_none (by omega)]
    exact Nat.le_refl _

theorem absorbStep_weight (loc : CustomCmds) (hb : LocBackward loc.tokens)
    (T : List RecordedToken) (i : Nat) (hi : i < T.length) :
    weightSum loc ((absorbStep loc T i).drop (i+1)) + 1 = weightSum loc (T.drop i) := by
  have hd : T.drop i = T[i] :: T.drop (i+1) := List.drop_eq_getElem_cons hi
  have hc : ∀ x l, weightSum loc (x :: l) =
      absorbWeight (absorbWeights [] loc.tokens) x + weightSum loc l := by
    intro x l; simp [weightSum]
  rw [hd, hc]
  rcases absorbStep_cases loc T i hi with ⟨n, c, s, e, h0, h⟩ | ⟨h0, h⟩
  · rw [h, drop_set_succ, List.drop_append_of_le_length (by omega), weightSum_append, h0,
      weight_ref loc hb]
    omega
  · rw [h]
    have : absorbWeight (absorbWeights [] loc.tokens) T[i] = 1 := by
      unfold absorbWeight
      split
      · rename_i heq; rw [heq] at h0; exact h0.elim
      · rfl
    omega

theorem absorbLoop_terminates (loc : CustomCmds) (hb : LocBackward loc.tokens) (fuel : Nat)
    (T : List RecordedToken) (i : Nat) (hf : weightSum loc (T.drop i) ≤ fuel) :
    (absorbLoop loc fuel T i).isSome := by
  induction fuel generalizing T i with
  | zero =>
    unfold absorbLoop
    by_cases hi : i < T.length
    · have := absorbStep_weight loc hb T i hi
      omega
    · rw [if_neg hi]; rfl
  | succ fuel ih =>
    unfold absorbLoop
    by_cases hi : i < T.length
    · rw [if_pos hi]
      have := absorbStep_weight loc hb T i hi
      exact ih _ _ (by omega)
    · rw [if_neg hi]; rfl

/-- The loop of `absorb` always ends: the fuel of the model is never used up. -/
theorem absorb_terminates (doc loc : CustomCmds) (hb : LocBackward loc.tokens)
    (body : List RecordedToken) :
    (absorbLoop loc (absorbFuel loc body) (doc.tokens ++ body) doc.tokens.length).isSome := by
  apply absorbLoop_terminates loc hb
  rw [List.drop_left]
  exact Nat.le_refl _

/-- The stores with the vector of the document store being `T`. -/
def withDoc (cfg loc T : List RecordedToken) : CmdSource → List RecordedToken
  | .config => cfg
  | .document => T
  | .loc => loc

/-- What the loop maintains. -/
structure AbsorbInv (cfg : List RecordedToken) (loc : CustomCmds) (T : List RecordedToken)
    (i : Nat) : Prop where
  range : ∀ src t, t ∈ withDoc cfg loc.tokens T src → InRange (withDoc cfg loc.tokens T) t
  done : ∀ p (h : p < T.length), p < i → NotLocal T[p]

theorem absorbStep_inv {cfg : List RecordedToken} {loc : CustomCmds} {T i} (hi : i < T.length)
    (inv : AbsorbInv cfg loc T i) :
    AbsorbInv cfg loc (absorbStep loc T i) (i+1) ∧
    (∀ p, p < T.length → p ≠ i → (absorbStep loc T i)[p]? = T[p]?) ∧
    ∀ k t, InRange (withDoc cfg loc.tokens T) t →
      meaning (withDoc cfg loc.tokens (absorbStep loc T i)) k t =
        meaning (withDoc cfg loc.tokens T) k t := by
  have hlen : ∀ src, (withDoc cfg loc.tokens T src).length ≤
      (withDoc cfg loc.tokens (absorbStep loc T i) src).length := by
    intro src
    cases src
    · exact Nat.le_refl _
    · exact absorbStep_length loc T i
    · exact Nat.le_refl _
  rcases absorbStep_cases loc T i hi with ⟨n, c, s, e, h0, h⟩ | ⟨h0, h⟩
  · have hr : s ≤ e ∧ e ≤ loc.tokens.length := by
      have := inv.range .document T[i] (List.getElem_mem hi)
      rw [h0] at this; exact this
    have hbody : loc.body s e = some ((loc.tokens.drop s).take (e - s)) := by
      rw [CustomCmds.body, sliceGet, if_pos hr]
    rw [hbody] at h
    simp only [Option.getD_some] at h
    generalize hB : (loc.tokens.drop s).take (e - s) = B at h
    have hBmem : ∀ t ∈ B, t ∈ loc.tokens := by
      intro t ht; rw [← hB] at ht; exact mem_slice ht
    have hget : ∀ p, p < T.length → p ≠ i → (absorbStep loc T i)[p]? = T[p]? := by
      intro p hp hne
      rw [h, List.getElem?_set_ne (by omega), List.getElem?_append_left hp]
    refine ⟨⟨?_, ?_⟩, hget, ?_⟩
    · intro src t ht
      cases src with
      | config => exact (inv.range .config t ht).mono hlen
      | loc => exact (inv.range .loc t ht).mono hlen
      | document =>
        have ht' : t ∈ absorbStep loc T i := ht
        rw [h] at ht'
        rcases List.mem_or_eq_of_mem_set ht' with hm | rfl
        · rcases List.mem_append.1 hm with hm | hm
          · exact (inv.range .document t hm).mono hlen
          · exact (inv.range .loc t (hBmem t hm)).mono hlen
        · show T.length ≤ T.length + B.length ∧ _
          refine ⟨by omega, ?_⟩
          show _ ≤ (absorbStep loc T i).length
          rw [h]; simp
    · intro p hp hpi
      by_cases hpe : p = i
      · subst hpe
        have : (absorbStep loc T p)[p]? = some (.token (.customCmdRef .document n c T.length
          (T.length + B.length))) := by
          rw [h, List.getElem?_set_self (by simp; omega)]
        rw [List.getElem?_eq_getElem hp, Option.some.injEq] at this
        rw [this]; trivial
      · have hp' : p < T.length := by omega
        have := hget p hp' hpe
        rw [List.getElem?_eq_getElem hp, List.getElem?_eq_getElem hp', Option.some.injEq] at this
        rw [this]
        exact inv.done p hp' (by omega)
    · apply meaning_sim hlen inv.range
      intro src p hp
      cases src with
      | config => left; exact List.getElem?_eq_getElem hp
      | loc => left; exact List.getElem?_eq_getElem hp
      | document =>
        have hp' : p < T.length := hp
        by_cases hpe : p = i
        · subst hpe
          right
          refine ⟨n, c, .loc, s, e, .document, T.length, T.length + B.length, h0, ?_, by omega, ?_, ?_⟩
          · show (absorbStep loc T p)[p]? = _
            rw [h, List.getElem?_set_self (by simp; omega)]
          · show _ ≤ (absorbStep loc T p).length
            rw [h]; simp
          · show (loc.tokens.drop s).take (e - s) = ((absorbStep loc T p).drop T.length).take _
            rw [hB, h, List.drop_set, if_pos hi, List.drop_left]
            rw [Nat.add_sub_cancel_left, List.take_length]
        · left
          show (absorbStep loc T i)[p]? = some T[p]
          rw [hget p hp' hpe, List.getElem?_eq_getElem hp']
  · rw [h]
    refine ⟨⟨inv.range, ?_⟩, fun _ _ _ => rfl, fun _ _ _ => rfl⟩
    intro p hp hpi
    by_cases hpe : p = i
    · subst hpe; exact h0
    · exact inv.done p hp (by omega)

theorem absorbLoop_spec {cfg : List RecordedToken} {loc : CustomCmds} (fuel : Nat) {T i T'}
    (inv : AbsorbInv cfg loc T i) (h : absorbLoop loc fuel T i = some T') :
    AbsorbInv cfg loc T' T'.length ∧ T.length ≤ T'.length ∧
    (∀ p, p < i → p < T.length → T'[p]? = T[p]?) ∧
    ∀ k t, InRange (withDoc cfg loc.tokens T) t →
      meaning (withDoc cfg loc.tokens T') k t = meaning (withDoc cfg loc.tokens T) k t := by
  induction fuel generalizing T i with
  | zero =>
    unfold absorbLoop at h
    by_cases hi : i < T.length
    · rw [if_pos hi] at h; cases h
    · rw [if_neg hi] at h; cases h
      exact ⟨⟨inv.range, fun p hp _ => inv.done p hp (by omega)⟩, Nat.le_refl _,
        fun _ _ _ => rfl, fun _ _ _ => rfl⟩
  | succ fuel ih =>
    unfold absorbLoop at h
    by_cases hi : i < T.length
    · rw [if_pos hi] at h
      obtain ⟨inv', hget, hm⟩ := absorbStep_inv hi inv
      obtain ⟨inv'', hl, hget', hm'⟩ := ih inv' h
      have hl1 := absorbStep_length loc T i
      refine ⟨inv'', by omega, ?_, ?_⟩
      · intro p hp hpl
        rw [hget' p (by omega) (by omega), hget p hpl (by omega)]
      · intro k t ht
        rw [hm' k t, hm k t ht]
        refine ht.mono ?_
        intro src
        cases src
        · exact Nat.le_refl _
        · exact hl1
        · exact Nat.le_refl _
    · rw [if_neg hi] at h; cases h
      exact ⟨⟨inv.range, fun p hp _ => inv.done p hp (by omega)⟩, Nat.le_refl _,
        fun _ _ _ => rfl, fun _ _ _ => rfl⟩

/-- What `absorb` does: the old bodies stay where they are, the resulting store has no
references to the local store and no dangling ones, and the new range means what the body meant. -/
theorem absorb_spec (cfg : List RecordedToken) (doc loc : CustomCmds) (body : List RecordedToken)
    (hb : LocBackward loc.tokens)
    (hr : ∀ src t, t ∈ withDoc cfg loc.tokens doc.tokens src →
      InRange (withDoc cfg loc.tokens doc.tokens) t)
    (hd : ∀ t ∈ doc.tokens, NotLocal t)
    (hbody : ∀ t ∈ body, InRange (withDoc cfg loc.tokens doc.tokens) t) :
    let r := doc.absorb loc body
    r.1.map = doc.map ∧ doc.tokens <+: r.1.tokens ∧
    r.2.1 = doc.tokens.length ∧ r.2.2 = doc.tokens.length + body.length ∧
    r.2.2 ≤ r.1.tokens.length ∧
    (∀ t ∈ r.1.tokens, NotLocal t ∧ InRange (withDoc cfg loc.tokens r.1.tokens) t) ∧
    (∀ k, ((r.1.tokens.drop r.2.1).take (r.2.2 - r.2.1)).map
        (meaning (withDoc cfg loc.tokens r.1.tokens) k) =
      body.map (meaning (withDoc cfg loc.tokens doc.tokens) k)) := by
  intro r
  obtain ⟨T', hT'⟩ := Option.isSome_iff_exists.1 (absorb_terminates doc loc hb body)
  have hlen0 : ∀ src, (withDoc cfg loc.tokens doc.tokens src).length ≤
      (withDoc cfg loc.tokens (doc.tokens ++ body) src).length := by
    intro src; cases src <;> simp [withDoc]
  have inv0 : AbsorbInv cfg loc (doc.tokens ++ body) doc.tokens.length := by
    constructor
    · intro src t ht
      cases src with
      | config => exact (hr .config t ht).mono hlen0
      | loc => exact (hr .loc t ht).mono hlen0
      | document =>
        rcases List.mem_append.1 (show t ∈ doc.tokens ++ body from ht) with h | h
        · exact (hr .document t h).mono hlen0
        · exact (hbody t h).mono hlen0
    · intro p hp hpd
      rw [List.getElem_append_left hpd]
      exact hd _ (List.getElem_mem _)
  obtain ⟨inv, hl, hget, hm⟩ := absorbLoop_spec _ inv0 hT'
  have hr1 : r.1.tokens = T' := by simp [r, CustomCmds.absorb, hT']
  have hlen : doc.tokens.length + body.length ≤ T'.length := by simpa using hl
  refine ⟨rfl, ?_, rfl, by simp [r, CustomCmds.absorb], ?_, ?_, ?_⟩
  · rw [hr1]
    refine ⟨T'.drop doc.tokens.length, ?_⟩
    apply List.ext_getElem?
    intro p
    by_cases hp : p < doc.tokens.length
    · rw [List.getElem?_append_left hp, hget p hp (by simp; omega), List.getElem?_append_left hp]
    · rw [List.getElem?_append_right (by omega), List.getElem?_drop]
      congr 1; omega
  · rw [hr1]
    show (doc.tokens ++ body).length ≤ _
    exact hl
  · rw [hr1]
    intro t ht
    refine ⟨?_, inv.range .document t ht⟩
    obtain ⟨p, hp, rfl⟩ := List.getElem_of_mem ht
    exact inv.done p hp hp
  · intro k
    rw [hr1]
    have hs : r.2.1 = doc.tokens.length := rfl
    have he : r.2.2 = doc.tokens.length + body.length := by simp [r, CustomCmds.absorb]
    have href : InRange (withDoc cfg loc.tokens (doc.tokens ++ body))
        (.token (.customCmdRef .document 0 none doc.tokens.length
          (doc.tokens.length + body.length))) := by
      refine ⟨by omega, ?_⟩
      show _ ≤ (doc.tokens ++ body).length
      simp
    have href' : doc.tokens.length ≤ doc.tokens.length + body.length ∧
        doc.tokens.length + body.length ≤ (withDoc cfg loc.tokens T' .document).length :=
      ⟨by omega, hlen⟩
    have := hm (k+1) _ href
    rw [meaning_ref href, meaning_ref href'] at this
    simp only [Meaning.macro.injEq, true_and] at this
    rw [hs, he]
    show List.map _ (List.take _ (List.drop _ (withDoc cfg loc.tokens T' .document))) = _
    rw [this]
    show List.map _ (List.take _ (List.drop _ (doc.tokens ++ body))) = _
    rw [List.drop_left, Nat.add_sub_cancel_left, List.take_length]
    apply List.map_congr_left
    intro t ht
    refine meaning_extend ?_ hr k t (hbody t ht)
    intro src
    cases src
    · exact List.prefix_refl _
    · exact List.prefix_append _ _
    · exact List.prefix_refl _

end Verif

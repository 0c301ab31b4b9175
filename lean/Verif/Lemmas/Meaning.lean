import Verif.Spec.Meaning
/-! Lemmas about the meaning of stored command bodies. -/
namespace Verif
open Model Spec

/-- A reference in the token lies within the stores. -/
def InRange (st : CmdSource → List RecordedToken) : RecordedToken → Prop
  | .token (.customCmdRef src _ _ s e) => s ≤ e ∧ e ≤ (st src).length
  | _ => True

/-- The token is not a reference to the local store. -/
def NotLocal : RecordedToken → Prop
  | .token (.customCmdRef .loc ..) => False
  | _ => True

theorem inRange_of_notRef {st t} (h : NotRef t) : InRange st t := by
  unfold InRange
  split
  · exact h.elim
  · trivial

theorem notLocal_of_notRef {t} (h : NotRef t) : NotLocal t := by
  unfold NotLocal
  split
  · exact h.elim
  · trivial

theorem InRange.mono {st st' : CmdSource → List RecordedToken} {t}
    (hlen : ∀ src, (st src).length ≤ (st' src).length) (h : InRange st t) : InRange st' t := by
  unfold InRange at *
  split
  · rename_i src _ _ s e
    have := hlen src
    simp only at h
    omega
  · trivial

/-- Extensional form of the meaning of a reference. -/
theorem meaning_ref {st src n c s e k} (h : s ≤ e ∧ e ≤ (st src).length) :
    meaning st (k+1) (.token (.customCmdRef src n c s e)) =
      .macro n c ((((st src).drop s).take (e - s)).map (meaning st k)) := by
  rw [meaning, if_pos h]

theorem mem_slice {α} {l : List α} {s n : Nat} {x : α} (h : x ∈ (l.drop s).take n) : x ∈ l :=
  List.mem_of_mem_drop (List.mem_of_mem_take h)

/-- If one family of stores is another one with more bodies added at the end, and with some
references replaced by references to equal bodies, then nothing changes its meaning. -/
theorem meaning_sim {st st' : CmdSource → List RecordedToken}
    (hlen : ∀ src, (st src).length ≤ (st' src).length)
    (hR : ∀ src t, t ∈ st src → InRange st t)
    (hstep : ∀ (src : CmdSource) (p : Nat) (h : p < (st src).length),
      (st' src)[p]? = some (st src)[p] ∨
      ∃ n c src0 s e src1 s' e', (st src)[p] = .token (.customCmdRef src0 n c s e) ∧
        (st' src)[p]? = some (.token (.customCmdRef src1 n c s' e')) ∧
        s' ≤ e' ∧ e' ≤ (st' src1).length ∧
        ((st src0).drop s).take (e - s) = ((st' src1).drop s').take (e' - s')) :
    ∀ k t, InRange st t → meaning st' k t = meaning st k t := by
  intro k
  induction k using Nat.strongRecOn with
  | _ k ih =>
    intro t ht
    cases t with
    | commandName n => cases k <;> rfl
    | token t =>
      cases k with
      | zero => rfl
      | succ k =>
        by_cases href : ∃ src n c s e, t = .customCmdRef src n c s e
        · obtain ⟨src, n, c, s, e, rfl⟩ := href
          have ht' : s ≤ e ∧ e ≤ (st src).length := ht
          have ht'' : s ≤ e ∧ e ≤ (st' src).length := ⟨ht'.1, Nat.le_trans ht'.2 (hlen src)⟩
          rw [meaning_ref ht', meaning_ref ht'']
          congr 1
          apply List.ext_getElem?
          intro i
          rw [List.getElem?_map, List.getElem?_map]
          by_cases hi : i < e - s
          · rw [List.getElem?_take_of_lt hi, List.getElem?_take_of_lt hi, List.getElem?_drop,
              List.getElem?_drop]
            have hp : s + i < (st src).length := by omega
            have hmem := hR src _ (List.getElem_mem hp)
            rw [List.getElem?_eq_getElem hp]
            rcases hstep src (s+i) hp with heq | ⟨n', c', src0, s0, e0, src1, s1, e1, h0, h1, hle, hl, hb⟩
            · rw [heq]
              simp only [Option.map_some, Option.some.injEq]
              exact ih k (by omega) _ hmem
            · rw [h1, h0]
              simp only [Option.map_some, Option.some.injEq]
              cases k with
              | zero => rfl
              | succ k =>
                rw [h0] at hmem
                rw [meaning_ref ⟨hle, hl⟩, meaning_ref hmem, ← hb]
                congr 1
                apply List.map_congr_left
                intro x hx
                exact ih k (by omega) x (hR _ _ (mem_slice hx))
          · rw [List.getElem?_eq_none (by rw [List.length_take]; omega),
              List.getElem?_eq_none (by rw [List.length_take]; omega)]
            rfl
        · have aux : ∀ st : CmdSource → List RecordedToken, meaning st (k+1) (.token t) = .tok t := by
            intro st
            unfold meaning
            split
            · rename_i h; simp at h
            · rename_i h; omega
            · rename_i h; simp at h; exact absurd ⟨_, _, _, _, _, h⟩ href
            · rename_i h; simp at h; rw [h]
          rw [aux, aux]

/-- Adding bodies at the end of the stores changes no meaning. -/
theorem meaning_extend {st st' : CmdSource → List RecordedToken}
    (hpre : ∀ src, st src <+: st' src) (hR : ∀ src t, t ∈ st src → InRange st t)
    (k t) (ht : InRange st t) : meaning st' k t = meaning st k t := by
  refine meaning_sim (fun src => (hpre src).length_le) hR ?_ k t ht
  intro src p h
  left
  obtain ⟨u, hu⟩ := hpre src
  rw [← hu, List.getElem?_append_left h, List.getElem?_eq_getElem h]

/-- Without references to the local store, its contents do not matter. -/
theorem meaning_local {st st' : CmdSource → List RecordedToken}
    (hsame : ∀ src, src ≠ .loc → st' src = st src)
    (hN : ∀ src, src ≠ .loc → ∀ t, t ∈ st src → NotLocal t)
    (k t) (ht : NotLocal t) : meaning st' k t = meaning st k t := by
  induction k generalizing t with
  | zero => cases t <;> rfl
  | succ k ih =>
    cases t with
    | commandName n => rfl
    | token t =>
      by_cases href : ∃ src n c s e, t = .customCmdRef src n c s e
      · obtain ⟨src, n, c, s, e, rfl⟩ := href
        have hsrc : src ≠ .loc := by rintro rfl; exact ht
        rw [meaning, meaning, hsame src hsrc]
        by_cases hr : s ≤ e ∧ e ≤ (st src).length
        · rw [if_pos hr, if_pos hr]
          congr 1
          apply List.map_congr_left
          intro x hx
          exact ih x (hN src hsrc x (mem_slice hx))
        · rw [if_neg hr, if_neg hr]
      · have aux : ∀ st : CmdSource → List RecordedToken, meaning st (k+1) (.token t) = .tok t := by
          intro st
          unfold meaning
          split
          · rename_i h; simp at h
          · rename_i h; omega
          · rename_i h; simp at h; exact absurd ⟨_, _, _, _, _, h⟩ href
          · rename_i h; simp at h; rw [h]
        rw [aux, aux]

end Verif

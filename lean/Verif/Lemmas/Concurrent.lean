import Verif.Spec.Concurrent
/-! Lemmas about the lock of the Python object. -/
namespace Verif
open Model Spec

theorem set_eq {α : Type} (f : Nat → α) (t : Nat) (a : α) : setAt f t a t = a := by simp [setAt]
theorem set_ne {α : Type} (f : Nat → α) {t t' : Nat} (a : α) (h : t' ≠ t) : setAt f t a t' = f t' := by
  simp [setAt, h]

/-- Does the thread hold the lock, and for what? -/
def holds : ThreadState → Option Bool
  | .holding m | .loaded m _ => some m.writes
  | _ => none

/-- The lock is held by the threads which think that they hold it. -/
def LockOk (l : LockState) (state : Nat → ThreadState) : Prop :=
  match l with
  | .free => ∀ t, holds (state t) = none
  | .reading ts => ts.Nodup ∧ ∀ t, holds (state t) = if t ∈ ts then some false else none
  | .writing t0 => ∀ t, holds (state t) = if t = t0 then some true else none

/-- The invariant of the machine -/
structure MachineInv (m : Machine) : Prop where
  lock : LockOk m.lock m.state
  snapshot : ∀ t call c, m.state t = .loaded call c → c = m.shared
  sound : ∀ t w, holds (m.state t) = some w → m.poisoned = false

theorem lockOk_congr {l : LockState} {s s' : Nat → ThreadState} (h : LockOk l s)
    (he : ∀ t, holds (s' t) = holds (s t)) : LockOk l s' := by
  cases l with
  | free => intro t; rw [he]; exact h t
  | reading ts => exact ⟨h.1, fun t => by rw [he]; exact h.2 t⟩
  | writing t0 => intro t; rw [he]; exact h t

theorem holds_set {s : Nat → ThreadState} {t : Nat} {a : ThreadState} (h : holds a = holds (s t)) (t' : Nat) :
    holds (setAt s t a t') = holds (s t') := by
  by_cases ht : t' = t
  · subst ht; rw [set_eq, h]
  · rw [set_ne _ _ ht]

theorem lockOk_acquire {l : LockState} {s : Nat → ThreadState} (h : LockOk l s) {t : Nat} {a : ThreadState} {w : Bool}
    (hn : holds (s t) = none) (ha : holds a = some w) (hadm : l.admits w = true) :
    LockOk (l.acquire t w) (setAt s t a) := by
  have key : ∀ t', holds (setAt s t a t') = if t' = t then some w else holds (s t') := by
    intro t'
    by_cases ht : t' = t
    · subst ht; rw [set_eq, ha]; simp
    · rw [set_ne _ _ ht, if_neg ht]
  cases l with
  | free =>
    cases w with
    | false =>
      refine ⟨by simp, fun t' => ?_⟩
      rw [key, h t']; simp
    | true =>
      intro t'
      rw [key, h t']
  | reading ts =>
    cases w with
    | false =>
      have hts : t ∉ ts := by
        intro hm
        have := h.2 t
        rw [if_pos hm, hn] at this
        cases this
      refine ⟨List.nodup_cons.2 ⟨hts, h.1⟩, fun t' => ?_⟩
      rw [key, h.2 t']
      by_cases ht : t' = t <;> simp [ht]
    | true =>
      have hts : ts = [] := by simpa [LockState.admits] using hadm
      subst hts
      intro t'
      rw [key, h.2 t']; simp
  | writing t0 => simp [LockState.admits] at hadm

theorem lockOk_release {l : LockState} {s : Nat → ThreadState} (h : LockOk l s) {t : Nat} {a : ThreadState} {w : Bool}
    (hn : holds (s t) = some w) (ha : holds a = none) : LockOk (l.release t) (setAt s t a) := by
  have key : ∀ t', holds (setAt s t a t') = if t' = t then none else holds (s t') := by
    intro t'
    by_cases ht : t' = t
    · subst ht; rw [set_eq, ha]; simp
    · rw [set_ne _ _ ht, if_neg ht]
  cases l with
  | free => rw [h t] at hn; cases hn
  | reading ts =>
    refine ⟨h.1.erase t, fun t' => ?_⟩
    rw [key, h.2 t']
    by_cases ht : t' = t
    · subst ht
      rw [if_pos rfl, if_neg (h.1.not_mem_erase)]
    · rw [if_neg ht]; simp only [List.mem_erase_of_ne ht]
  | writing t0 =>
    intro t'
    rw [key, h t']
    have h0 : t = t0 := by
      have := h t
      rw [hn] at this
      split at this
      · assumption
      · cases this
    subst h0
    by_cases ht : t' = t <;> simp [ht]

/-- Nobody else holds the lock together with a writer. -/
theorem lockOk_alone {l : LockState} {s : Nat → ThreadState} (h : LockOk l s) {t t' : Nat} {w : Bool}
    (hw : holds (s t) = some true) (hw' : holds (s t') = some w) : t' = t := by
  cases l with
  | free => rw [h t] at hw; cases hw
  | reading ts => rw [h.2 t] at hw; split at hw <;> cases hw
  | writing t0 =>
    rw [h t] at hw
    rw [h t'] at hw'
    split at hw
    · split at hw'
      · subst_vars; rfl
      · cases hw'
    · cases hw

theorem run_reader (f : PyFlags) (fuel : Nat) (c : Converter) (m : Method) (h : m.writes = false) :
    (f.run fuel c m).2 = c := by
  cases m with
  | all s => rfl
  | _ => cases h

theorem MachineInv.step {f : PyFlags} {fuel : Nat} {m m' : Machine} (h : MachineInv m) (hs : Step f fuel m m') :
    MachineInv m' := by
  cases hs with
  | @enter t call rest h1 h2 =>
    have he := holds_set (s := m.state) (t := t) (a := .waiting call) (by rw [h1]; rfl)
    refine ⟨lockOk_congr h.lock he, ?_, fun t' w hw => h.sound t' w (by rw [← he]; exact hw)⟩
    intro t' call' c hc
    by_cases ht : t' = t
    · subst ht; simp only [set_eq] at hc; cases hc
    · simp only [set_ne _ _ ht] at hc; exact h.snapshot t' call' c hc
  | @acquire t call h1 h2 h3 =>
    refine ⟨lockOk_acquire h.lock (by rw [h1]; rfl) rfl h2, ?_, fun _ _ _ => h3⟩
    intro t' call' c hc
    by_cases ht : t' = t
    · subst ht; simp only [set_eq] at hc; cases hc
    · simp only [set_ne _ _ ht] at hc; exact h.snapshot t' call' c hc
  | @poisoned t call h1 h2 h3 =>
    have he := holds_set (s := m.state) (t := t) (a := .finished call .lockError) (by rw [h1]; rfl)
    refine ⟨lockOk_congr h.lock he, ?_, fun t' w hw => h.sound t' w (by rw [← he]; exact hw)⟩
    intro t' call' c hc
    by_cases ht : t' = t
    · subst ht; simp only [set_eq] at hc; cases hc
    · simp only [set_ne _ _ ht] at hc; exact h.snapshot t' call' c hc
  | @load t call h1 =>
    have he := holds_set (s := m.state) (t := t) (a := .loaded call m.shared) (by rw [h1]; rfl)
    refine ⟨lockOk_congr h.lock he, ?_, fun t' w hw => h.sound t' w (by rw [← he]; exact hw)⟩
    intro t' call' c hc
    by_cases ht : t' = t
    · subst ht; simp only [set_eq] at hc; cases hc; rfl
    · simp only [set_ne _ _ ht] at hc; exact h.snapshot t' call' c hc
  | @store t call snapshot h1 =>
    have hh : holds (m.state t) = some call.writes := by rw [h1]; rfl
    refine ⟨lockOk_release h.lock hh rfl, ?_, ?_⟩
    · intro t' call' c hc
      by_cases ht : t' = t
      · subst ht; simp only [set_eq] at hc; cases hc
      · simp only [set_ne _ _ ht] at hc
        cases hw : call.writes with
        | false => simp only [Bool.false_eq_true, if_false]; exact h.snapshot t' call' c hc
        | true =>
          rw [hw] at hh
          exact absurd (lockOk_alone h.lock hh (t' := t') (w := call'.writes) (by rw [hc]; rfl)) ht
    · intro t' w hc
      by_cases ht : t' = t
      · subst ht; simp only [set_eq] at hc; cases hc
      · simp only [set_ne _ _ ht] at hc
        cases hw : call.writes with
        | false => simpa using h.sound t' w hc
        | true =>
          rw [hw] at hh
          exact absurd (lockOk_alone h.lock hh hc) ht
  | @return_ t call r h1 =>
    have he := holds_set (s := m.state) (t := t) (a := .idle) (by rw [h1]; rfl)
    refine ⟨lockOk_congr h.lock he, ?_, fun t' w hw => h.sound t' w (by rw [← he]; exact hw)⟩
    intro t' call' c hc
    by_cases ht : t' = t
    · subst ht; simp only [set_eq] at hc; cases hc
    · simp only [set_ne _ _ ht] at hc; exact h.snapshot t' call' c hc

theorem replies_append (f : PyFlags) (fuel : Nat) (s : Sequential) (a b : List Method) :
    Sequential.replies f fuel s (a ++ b) =
      Sequential.replies f fuel s a ++ Sequential.replies f fuel (Sequential.after f fuel s a) b := by
  induction a generalizing s with
  | nil => rfl
  | cons m a ih => simp only [List.cons_append, Sequential.replies, Sequential.after, ih]

theorem after_append (f : PyFlags) (fuel : Nat) (s : Sequential) (a b : List Method) :
    Sequential.after f fuel s (a ++ b) = Sequential.after f fuel (Sequential.after f fuel s a) b := by
  induction a generalizing s with
  | nil => rfl
  | cons m a ih => simp only [List.cons_append, Sequential.after, ih]

/-- The order explains the machine, and the shared converter is the sequential one. -/
structure Linked (f : PyFlags) (fuel : Nat) (c : Converter) (programs : Nat → List Method) (m : Machine)
    (order : List (Nat × Method × PyReply)) : Prop where
  inv : MachineInv m
  explains : Explains f fuel c programs m order
  after : Sequential.after f fuel ⟨c, false⟩ (order.map (·.2.1)) = ⟨m.shared, m.poisoned⟩

theorem Linked.silent {f : PyFlags} {fuel : Nat} {c programs} {m m' : Machine} {order} (h : Linked f fuel c programs m order)
    (hs : Step f fuel m m') (hshared : m'.shared = m.shared) (hpois : m'.poisoned = m.poisoned)
    (hthreads : ∀ t, m'.returned t ++ pending m' t = m.returned t ++ pending m t)
    (hprog : ∀ t, (m'.returned t).map (·.1) ++ current m' t ++ m'.todo t =
      (m.returned t).map (·.1) ++ current m t ++ m.todo t) :
    Linked f fuel c programs m' order :=
  ⟨h.inv.step hs, ⟨h.explains.replies, fun t => by rw [h.explains.threads, hthreads],
    fun t => by rw [h.explains.programs, hprog]⟩, by rw [h.after, hshared, hpois]⟩

/-- A call is done: it is the next one in the order. -/
theorem Linked.commit {f : PyFlags} {fuel : Nat} {c programs} {m m' : Machine} {order} (h : Linked f fuel c programs m order)
    (hs : Step f fuel m m') (t : Nat) (call : Method) (r : PyReply)
    (hc : Sequential.call f fuel ⟨m.shared, m.poisoned⟩ call = (r, ⟨m'.shared, m'.poisoned⟩))
    (hret : m'.returned = m.returned) (htodo : m'.todo = m.todo)
    (hst : m'.state = setAt m.state t (.finished call r)) (hcur : current m t = [call]) (hpend : pending m t = []) :
    Linked f fuel c programs m' (order ++ [(t, call, r)]) := by
  refine ⟨h.inv.step hs, ⟨?_, ?_, ?_⟩, ?_⟩
  · rw [List.map_append, List.map_append, replies_append, h.after, h.explains.replies]
    simp [Sequential.replies, hc]
  · intro t'
    rw [List.filter_append, List.map_append, h.explains.threads, hret]
    by_cases ht : t' = t
    · subst ht
      rw [hpend]
      unfold pending
      rw [hst, set_eq]
      simp
    · have hp : pending m' t' = pending m t' := by
        unfold pending
        rw [hst, set_ne _ _ ht]
      have hne : (t == t') = false := by simpa using fun h => ht h.symm
      rw [hp]; simp [hne]
  · intro t'
    rw [h.explains.programs, hret, htodo]
    by_cases ht : t' = t
    · subst ht
      rw [hcur]
      unfold current
      rw [hst, set_eq]
    · have hp : current m' t' = current m t' := by
        unfold current
        rw [hst, set_ne _ _ ht]
      rw [hp]
  · rw [List.map_append, after_append, h.after]
    simp [Sequential.after, hc]

theorem Linked.step {f : PyFlags} {fuel : Nat} {c programs} {m m' : Machine} {order} (h : Linked f fuel c programs m order)
    (hs : Step f fuel m m') : ∃ new, Linked f fuel c programs m' (order ++ new) := by
  have hs' := hs
  cases hs with
  | @enter t call rest h1 h2 =>
    refine ⟨[], ?_⟩
    rw [List.append_nil]
    refine h.silent hs' rfl rfl (fun t' => ?_) (fun t' => ?_)
    · by_cases ht : t' = t
      · subst ht; simp [pending, set_eq, h1]
      · simp [pending, set_ne _ _ ht]
    · by_cases ht : t' = t
      · subst ht; simp [current, set_eq, h1, h2]
      · simp [current, set_ne _ _ ht]
  | @acquire t call h1 h2 h3 =>
    refine ⟨[], ?_⟩
    rw [List.append_nil]
    refine h.silent hs' rfl rfl (fun t' => ?_) (fun t' => ?_)
    · by_cases ht : t' = t
      · subst ht; simp [pending, set_eq, h1]
      · simp [pending, set_ne _ _ ht]
    · by_cases ht : t' = t
      · subst ht; simp [current, set_eq, h1]
      · simp [current, set_ne _ _ ht]
  | @poisoned t call h1 h2 h3 =>
    refine ⟨[(t, call, .lockError)], h.commit hs' t call .lockError ?_ rfl rfl rfl ?_ ?_⟩
    · simp [Sequential.call, h3]
    · simp [current, h1]
    · simp [pending, h1]
  | @load t call h1 =>
    refine ⟨[], ?_⟩
    rw [List.append_nil]
    refine h.silent hs' rfl rfl (fun t' => ?_) (fun t' => ?_)
    · by_cases ht : t' = t
      · subst ht; simp [pending, set_eq, h1]
      · simp [pending, set_ne _ _ ht]
    · by_cases ht : t' = t
      · subst ht; simp [current, set_eq, h1]
      · simp [current, set_ne _ _ ht]
  | @store t call snapshot h1 =>
    refine ⟨[(t, call, (f.run fuel snapshot call).1)], h.commit hs' t call _ ?_ rfl rfl rfl ?_ ?_⟩
    · have hsnap := h.inv.snapshot t call snapshot h1
      have hp := h.inv.sound t call.writes (by rw [h1]; rfl)
      subst hsnap
      simp only [Sequential.call, hp, Bool.false_eq_true, if_false, Bool.false_or]
      cases hw : call.writes with
      | true => simp
      | false => simp [run_reader f fuel _ call hw]
    · simp [current, h1]
    · simp [pending, h1]
  | @return_ t call r h1 =>
    refine ⟨[], ?_⟩
    rw [List.append_nil]
    refine h.silent hs' rfl rfl (fun t' => ?_) (fun t' => ?_)
    · by_cases ht : t' = t
      · subst ht; simp [pending, set_eq, h1]
      · simp [pending, set_ne _ _ ht]
    · by_cases ht : t' = t
      · subst ht; simp [current, set_eq, h1]
      · simp [current, set_ne _ _ ht]

theorem Linked.steps {f : PyFlags} {fuel : Nat} {c programs} {m m' : Machine} {order} (h : Linked f fuel c programs m order)
    (hs : Steps f fuel m m') : ∃ new, Linked f fuel c programs m' (order ++ new) := by
  induction hs with
  | refl => exact ⟨[], by rw [List.append_nil]; exact h⟩
  | step _ hst ih =>
    obtain ⟨n1, h1⟩ := ih
    obtain ⟨n2, h2⟩ := h1.step hst
    exact ⟨n1 ++ n2, by rw [← List.append_assoc]; exact h2⟩

theorem Linked.start (f : PyFlags) (fuel : Nat) (c : Converter) (programs : Nat → List Method) :
    Linked f fuel c programs (start c programs) [] := by
  refine ⟨⟨fun t => rfl, ?_, ?_⟩, ⟨rfl, fun t => rfl, fun t => by simp [Spec.start, current]⟩, rfl⟩
  · intro t call c' h; cases h
  · intro t w h; cases h

theorem Steps.inv {f : PyFlags} {fuel : Nat} {m m' : Machine} (h : MachineInv m) (hs : Steps f fuel m m') :
    MachineInv m' := by
  induction hs with
  | refl => exact h
  | step _ hst ih => exact ih.step hst

end Verif

import Verif.Lemmas.Concurrent
import Verif.Spec.Session
import Verif.Props.Sessions
/-! Property C38: the Python object may be used by several threads. -/
namespace Verif
open Model Spec

/-- C38. Whatever the threads do and however they are scheduled, there is a sequential order of the calls which
explains every reply. It respects time: what had been done at any moment comes before what is done later. -/
theorem C38_serialisable (f : PyFlags) (fuel : Nat) (c : Converter) (programs : Nat → List Method)
    (m m' : Machine) (h : Steps f fuel (start c programs) m) (h' : Steps f fuel m m') :
    ∃ order later, Explains f fuel c programs m order ∧ Explains f fuel c programs m' (order ++ later) := by
  obtain ⟨o, ho⟩ := (Linked.start f fuel c programs).steps h
  obtain ⟨l, hl⟩ := ho.steps h'
  exact ⟨o, l, ho.explains, hl.explains⟩

/-- C38. The sequential replies are those of the library: as long as no call has panicked, the n-th one is what the
library returns after the calls before it. -/
theorem C38_sequential (f : PyFlags) (fuel : Nat) (s : Sequential) (calls : List Method) (m : Method)
    (h : (Sequential.after f fuel s calls).broken = false) :
    Sequential.replies f fuel s (calls ++ [m]) =
      Sequential.replies f fuel s calls ++ [(f.run fuel (Sequential.after f fuel s calls).converter m).1] := by
  rw [replies_append]
  simp [Sequential.replies, Sequential.call, h]

/-- The call of the library behind a method -/
def _root_.Verif.Model.Method.call : Method → Call
  | .withGlobalState latex d => .withGlobalState latex (displayOf d)
  | .withLocalState latex d => .withLocalState latex (displayOf d)
  | .all snippets => .all (snippets.map fun (latex, d) => (latex, displayOf d))
  | .reset => .reset

theorem run_state (f : PyFlags) (fuel : Nat) (c : Converter) (m : Method) :
    (f.run fuel c m).2 = (perform fuel c m.call).2 := by
  cases m <;> rfl

/-- C38. The converter of the sequential order is the one which the library leaves, as long as no call has
panicked. -/
theorem C38_converter (f : PyFlags) (fuel : Nat) (c : Converter) (calls : List Method)
    (h : (Sequential.after f fuel ⟨c, false⟩ calls).broken = false) :
    (Sequential.after f fuel ⟨c, false⟩ calls).converter = after fuel c (calls.map Method.call) := by
  have stuck : ∀ (s : Sequential) (ms : List Method), s.broken = true →
      (Sequential.after f fuel s ms).broken = true := by
    intro s ms
    induction ms generalizing s with
    | nil => exact id
    | cons m ms ih => intro hb; exact ih _ (by simp [Sequential.call, hb])
  induction calls generalizing c with
  | nil => rfl
  | cons m ms ih =>
    have hstep : (Sequential.call f fuel ⟨c, false⟩ m).2 =
        ⟨(f.run fuel c m).2, m.writes && (f.run fuel c m).1 == .panic⟩ := by simp [Sequential.call]
    simp only [Sequential.after] at h ⊢
    rw [hstep] at h ⊢
    cases hb : (m.writes && (f.run fuel c m).1 == .panic) with
    | true => rw [hb] at h; rw [stuck _ _ rfl] at h; cases h
    | false =>
      rw [hb] at h
      rw [ih _ h, run_state]
      rfl

/-- C38. Nobody waits for ever for the lock: unless all calls have returned, some thread can go on. -/
theorem C38_progress (f : PyFlags) (fuel : Nat) (c : Converter) (programs : Nat → List Method) (m : Machine)
    (h : Steps f fuel (start c programs) m) (t : Nat) (ht : current m t ++ m.todo t ≠ []) :
    ∃ m', Step f fuel m m' := by
  have hinv := Steps.inv (Linked.start f fuel c programs).inv h
  have holder : ∀ t' w, holds (m.state t') = some w → ∃ m', Step f fuel m m' := by
    intro t' w hw
    cases hs : m.state t' with
    | holding call => exact ⟨_, .load hs⟩
    | loaded call c => exact ⟨_, .store hs⟩
    | _ => rw [hs] at hw; cases hw
  cases hs : m.state t with
  | idle =>
    cases htodo : m.todo t with
    | nil => simp [current, hs, htodo] at ht
    | cons call rest => exact ⟨_, .enter hs htodo⟩
  | holding call => exact ⟨_, .load hs⟩
  | loaded call c => exact ⟨_, .store hs⟩
  | finished call r => exact ⟨_, .return_ hs⟩
  | waiting call =>
    cases hadm : m.lock.admits call.writes with
    | true =>
      cases hp : m.poisoned with
      | true => exact ⟨_, .poisoned hs hadm hp⟩
      | false => exact ⟨_, .acquire hs hadm hp⟩
    | false =>
      have hl := hinv.lock
      revert hl hadm
      cases m.lock with
      | free => intro hadm; cases hadm
      | reading ts =>
        intro hadm hl
        cases ts with
        | nil => simp [LockState.admits] at hadm
        | cons t' ts => exact holder t' false (by rw [hl.2 t']; simp)
      | writing t' => intro _ hl; exact holder t' true (by rw [hl t']; simp)

/-- C38. Two batches can be converted at the same time. -/
theorem C38_readers (f : PyFlags) (fuel : Nat) (c : Converter) (a b : List (Str × Bool)) :
    ∃ m, Steps f fuel (start c fun t => if t = 0 then [.all a] else if t = 1 then [.all b] else []) m ∧
      m.state 0 = .loaded (.all a) c ∧ m.state 1 = .loaded (.all b) c := by
  refine ⟨_, .step (.step (.step (.step (.step (.step .refl (.enter (t := 0) rfl rfl)) (.enter (t := 1) rfl rfl))
    (.acquire (t := 0) rfl rfl rfl)) (.acquire (t := 1) rfl rfl rfl)) (.load (t := 0) rfl))
    (.load (t := 1) rfl), rfl, rfl⟩

/-- C38. Two other conversions cannot: if a thread has the lock for a call which is not a batch, nobody else has
it. In particular `convert_with_local_state`, which changes nothing, excludes everybody. -/
theorem C38_exclusive (f : PyFlags) (fuel : Nat) (c : Converter) (programs : Nat → List Method) (m : Machine)
    (h : Steps f fuel (start c programs) m) (t t' : Nat) (w : Bool) (ht : holds (m.state t) = some true)
    (ht' : holds (m.state t') = some w) : t' = t :=
  lockOk_alone (Steps.inv (Linked.start f fuel c programs).inv h).lock ht ht'

end Verif

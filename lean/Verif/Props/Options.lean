import Verif.Spec.Options
import Verif.Props.Bindings
/-! C48: settings reach the converter, and the bindings agree. -/
namespace Verif
open Model Spec

/-! ### Settings reach the library -/

theorem pyPretty_name (p : PrettyPrint) : pyPrettyPrint (prettyName p) = .ok p := by cases p <;> rfl
theorem pyUnicode_name (u : UnicodeSubstitution) : pyUnicode (unicodeName u) = .ok u := by cases u <;> rfl
theorem jsPretty_name (p : PrettyPrint) : jsPrettyPrint (some (prettyName p)) = .ok (some p) := by cases p <;> rfl
theorem jsUnicode_name (u : UnicodeSubstitution) : jsUnicode (some (unicodeName u)) = .ok u := by cases u <;> rfl

theorem dict_strings (m : List (Str × Str)) :
    dictToTupleVec (m.map fun kv => (PyValue.str kv.1, PyValue.str kv.2)) = .ok m := by
  induction m with
  | nil => rfl
  | cons kv m ih => simp only [List.map_cons, dictToTupleVec, ih]

theorem entries_strings (m : List (Str × Str)) :
    jsMacroLoop (m.map fun kv => JsEntry.entry (some kv.1) (some kv.2)) = some m := by
  induction m with
  | nil => rfl
  | cons kv m ih => simp only [List.map_cons, jsMacroLoop, ih, Option.map_some]

/-- C48. What is asked for reaches the library, in Python. -/
theorem C48_python (s : Settings) (fmt : Rat → Str) : s.python.config fmt = .ok (s.asked fmt) := by
  have h1 : pyPrettyPrint s.python.prettyPrint = .ok (s.prettyPrint.getD .never) := by
    show pyPrettyPrint ((s.prettyPrint.map prettyName).getD (prettyName .never)) = _
    cases s.prettyPrint with
    | none => rfl
    | some p => exact pyPretty_name p
  have h2 : pyUnicode s.python.unicodeSubstitution = .ok (s.unicodeSubstitution.getD .conventional) := by
    show pyUnicode ((s.unicodeSubstitution.map unicodeName).getD (unicodeName .conventional)) = _
    cases s.unicodeSubstitution with
    | none => rfl
    | some p => exact pyUnicode_name p
  have h3 : pyMacros s.python.macros = .ok (s.macros.getD []) := by
    show pyMacros ((s.macros.map fun m => some (m.map fun kv => (PyValue.str kv.1, PyValue.str kv.2))).getD none) = _
    cases s.macros with
    | none => rfl
    | some m => exact dict_strings m
  unfold PyOptions.config
  rw [h1, h2, h3]
  rfl

/-- C48. What is asked for reaches the library, in JavaScript. -/
theorem C48_javascript (s : Settings) (fmt : Rat → Str) : s.js.config fmt = .ok (s.asked fmt) := by
  have h1 : ∃ p, jsPrettyPrint s.js.prettyPrint = .ok p ∧ p.getD .never = s.prettyPrint.getD .never := by
    show ∃ p, jsPrettyPrint (s.prettyPrint.map prettyName) = .ok p ∧ _
    cases s.prettyPrint with
    | none => exact ⟨_, rfl, rfl⟩
    | some p => exact ⟨_, jsPretty_name p, rfl⟩
  have h2 : jsUnicode s.js.unicodeSubstitution = .ok (s.unicodeSubstitution.getD .conventional) := by
    show jsUnicode (s.unicodeSubstitution.map unicodeName) = _
    cases s.unicodeSubstitution with
    | none => rfl
    | some u => exact jsUnicode_name u
  have h3 : ∃ m, jsMacros s.js.macros = .ok m ∧ m.getD [] = s.macros.getD [] := by
    show ∃ m, jsMacros (s.macros.map fun m => m.map fun kv => JsEntry.entry (some kv.1) (some kv.2)) = .ok m ∧ _
    cases s.macros with
    | none => exact ⟨_, rfl, rfl⟩
    | some m =>
      refine ⟨some m, ?_, rfl⟩
      simp only [Option.map_some, jsMacros, entries_strings]
  obtain ⟨p, h1, e1⟩ := h1
  obtain ⟨m, h3, e3⟩ := h3
  unfold JsOptions.config
  rw [h1, h2, h3]
  show Except.ok _ = Except.ok _
  rw [e1, e3]
  rfl

/-! ### Invalid options -/

theorem dict_ok_iff (dict : List (PyValue × PyValue)) :
    (∃ m, dictToTupleVec dict = .ok m) ↔ ∀ kv ∈ dict, ∃ k v, kv = (.str k, .str v) := by
  induction dict with
  | nil => exact ⟨fun _ => nofun, fun _ => ⟨[], rfl⟩⟩
  | cons kv dict ih =>
    obtain ⟨k, v⟩ := kv
    constructor
    · rintro ⟨m, h⟩
      cases k with
      | other => cases h
      | str k =>
        cases v with
        | other => cases h
        | str v =>
          simp only [dictToTupleVec] at h
          cases hd : dictToTupleVec dict with
          | error e => rw [hd] at h; cases h
          | ok m' =>
            intro kv hkv
            cases hkv with
            | head => exact ⟨k, v, rfl⟩
            | tail _ hkv => exact ih.1 ⟨m', hd⟩ kv hkv
    · intro h
      obtain ⟨k, v, e⟩ := h _ List.mem_cons_self
      cases e
      obtain ⟨m, hm⟩ := ih.2 fun kv hkv => h kv (List.mem_cons_of_mem _ hkv)
      exact ⟨(k, v) :: m, by simp only [dictToTupleVec, hm]⟩

theorem pyPretty_ok_iff (s : Str) : (∃ p, pyPrettyPrint s = .ok p) ↔ s = c!"never" ∨ s = c!"always" ∨ s = c!"auto" := by
  unfold pyPrettyPrint
  constructor
  · rintro ⟨p, h⟩
    split at h
    · exact .inl ‹_›
    · split at h
      · exact .inr (.inl ‹_›)
      · split at h
        · exact .inr (.inr ‹_›)
        · cases h
  · rintro (rfl | rfl | rfl) <;> exact ⟨_, rfl⟩

theorem pyUnicode_ok_iff (s : Str) : (∃ p, pyUnicode s = .ok p) ↔ s = c!"never" ∨ s = c!"conventional" := by
  unfold pyUnicode
  constructor
  · rintro ⟨p, h⟩
    split at h
    · exact .inr ‹_›
    · split at h
      · exact .inl ‹_›
      · cases h
  · rintro (rfl | rfl) <;> exact ⟨_, rfl⟩

theorem except_of_ok {ε α : Type} {x : Except ε α} : (∃ a, x = .ok a) ∨ ∃ e, x = .error e := by
  cases x
  · exact .inr ⟨_, rfl⟩
  · exact .inl ⟨_, rfl⟩

/-- C48. Python accepts exactly the options which are valid; the error for others names the option or says that
something is not a string. -/
theorem C48_python_rejects (o : PyOptions) (fmt : Rat → Str) :
    ((∃ config, o.config fmt = .ok config) ↔ PyOptions.Valid o) ∧
    ∀ e, o.config fmt = .error e →
      (e = .invalid c!"pretty_print" o.prettyPrint ∧ ¬ (o.prettyPrint = c!"never" ∨ o.prettyPrint = c!"always" ∨
        o.prettyPrint = c!"auto")) ∨
      (e = .invalid c!"unicode_substitution" o.unicodeSubstitution ∧
        ¬ (o.unicodeSubstitution = c!"never" ∨ o.unicodeSubstitution = c!"conventional")) ∨
      e = .notAString := by
  have hm : (∃ m, pyMacros o.macros = .ok m) ↔ ∀ dict, o.macros = some dict → ∀ kv ∈ dict, ∃ k v, kv = (.str k, .str v) := by
    cases o.macros with
    | none => exact ⟨fun _ _ h => by (cases h), fun _ => ⟨[], rfl⟩⟩
    | some dict =>
      show (∃ m, dictToTupleVec dict = .ok m) ↔ _
      rw [dict_ok_iff]
      exact ⟨fun h d e => by (cases e; exact h), fun h => h dict rfl⟩
  have hme : ∀ e, pyMacros o.macros = .error e → e = .notAString := by
    cases o.macros with
    | none => intro e h; cases h
    | some dict =>
      intro e h
      have h : dictToTupleVec dict = .error e := h
      induction dict with
      | nil => cases h
      | cons kv dict ih =>
        obtain ⟨k, v⟩ := kv
        cases k with
        | other => cases h; rfl
        | str k =>
          cases v with
          | other => cases h; rfl
          | str v =>
            simp only [dictToTupleVec] at h
            cases hd : dictToTupleVec dict with
            | error e' => rw [hd] at h; cases h; exact ih hd hd
            | ok m' => rw [hd] at h; cases h
  unfold PyOptions.Valid
  rw [← hm, ← pyPretty_ok_iff, ← pyUnicode_ok_iff]
  unfold PyOptions.config
  cases h1 : pyPrettyPrint o.prettyPrint with
  | error e1 =>
    refine ⟨⟨fun ⟨_, h⟩ => by (cases h), fun ⟨⟨_, h⟩, _⟩ => by (cases h)⟩, ?_⟩
    intro e h
    cases h
    refine .inl ⟨?_, fun ⟨_, h⟩ => by cases h⟩
    unfold pyPrettyPrint at h1
    repeat' split at h1
    all_goals cases h1
    rfl
  | ok p =>
    cases h2 : pyUnicode o.unicodeSubstitution with
    | error e1 =>
      refine ⟨⟨fun ⟨_, h⟩ => by (cases h), fun ⟨_, ⟨_, h⟩, _⟩ => by (cases h)⟩, ?_⟩
      intro e h
      cases h
      refine .inr (.inl ⟨?_, fun ⟨_, h⟩ => by cases h⟩)
      unfold pyUnicode at h2
      repeat' split at h2
      all_goals cases h2
      rfl
    | ok u =>
      cases h3 : pyMacros o.macros with
      | error e1 =>
        refine ⟨⟨fun ⟨_, h⟩ => by (cases h), fun ⟨_, _, ⟨_, h⟩⟩ => by (cases h)⟩, ?_⟩
        intro e h
        cases h
        exact .inr (.inr (hme _ h3))
      | ok m =>
        refine ⟨⟨fun _ => ⟨⟨_, rfl⟩, ⟨_, rfl⟩, _, rfl⟩, fun _ => ⟨_, rfl⟩⟩, ?_⟩
        intro e h
        cases h

theorem entries_ok_iff (xs : List JsEntry) :
    (jsMacroLoop xs).isSome ↔ ∀ x ∈ xs, ∃ k v, x = .entry (some k) (some v) := by
  induction xs with
  | nil => exact ⟨fun _ => nofun, fun _ => rfl⟩
  | cons x xs ih =>
    have key : (∃ k v, x = .entry (some k) (some v)) ∨ (jsMacroLoop (x :: xs) = none ∧
        ∀ k v, x ≠ .entry (some k) (some v)) := by
      match x with
      | .throws | .notAnArray | .entry none _ | .entry (some _) none => exact .inr ⟨rfl, nofun⟩
      | .entry (some k) (some v) => exact .inl ⟨k, v, rfl⟩
    rcases key with ⟨k, v, rfl⟩ | ⟨h, hx⟩
    · have : (jsMacroLoop (.entry (some k) (some v) :: xs)).isSome ↔ (jsMacroLoop xs).isSome := by
        simp only [jsMacroLoop, Option.isSome_map]
      rw [this, ih]
      simp
    · rw [h]
      refine ⟨fun h => by (cases h), fun h => ?_⟩
      obtain ⟨k, v, e⟩ := h x List.mem_cons_self
      exact absurd e (hx k v)

/-- C48. JavaScript accepts exactly the options which are valid. -/
theorem C48_javascript_rejects (o : JsOptions) (fmt : Rat → Str) :
    (∃ config, o.config fmt = .ok config) ↔ JsOptions.Valid o := by
  have hm : (∃ m, jsMacros o.macros = .ok m) ↔
      ∀ entries, o.macros = some entries → ∀ x ∈ entries, ∃ k v, x = .entry (some k) (some v) := by
    cases o.macros with
    | none => exact ⟨fun _ _ h => by (cases h), fun _ => ⟨_, rfl⟩⟩
    | some xs =>
      have h1 : (∃ m, jsMacros (some xs) = .ok m) ↔ (jsMacroLoop xs).isSome := by
        unfold jsMacros
        dsimp only
        cases jsMacroLoop xs with
        | none => exact ⟨fun ⟨_, h⟩ => by (cases h), fun h => by cases h⟩
        | some m => exact ⟨fun _ => rfl, fun _ => ⟨_, rfl⟩⟩
      rw [h1, entries_ok_iff]
      exact ⟨fun h d e => by (cases e; exact h), fun h => h xs rfl⟩
  have hp : (∃ p, jsPrettyPrint o.prettyPrint = .ok p) ↔
      ∀ s, o.prettyPrint = some s → s = c!"never" ∨ s = c!"always" ∨ s = c!"auto" := by
    cases o.prettyPrint with
    | none => exact ⟨fun _ _ h => by (cases h), fun _ => ⟨_, rfl⟩⟩
    | some s =>
      constructor
      · rintro ⟨p, h⟩ s' e
        cases e
        unfold jsPrettyPrint at h
        dsimp only at h
        split at h
        · exact .inr (.inl ‹_›)
        · split at h
          · exact .inl ‹_›
          · split at h
            · exact .inr (.inr ‹_›)
            · cases h
      · intro h
        rcases h s rfl with rfl | rfl | rfl <;> exact ⟨_, rfl⟩
  have hu : (∃ p, jsUnicode o.unicodeSubstitution = .ok p) ↔
      ∀ s, o.unicodeSubstitution = some s → s = c!"never" ∨ s = c!"conventional" := by
    cases o.unicodeSubstitution with
    | none => exact ⟨fun _ _ h => by (cases h), fun _ => ⟨_, rfl⟩⟩
    | some s =>
      constructor
      · rintro ⟨p, h⟩ s' e
        cases e
        unfold jsUnicode at h
        dsimp only at h
        split at h
        · exact .inl ‹_›
        · split at h
          · exact .inr ‹_›
          · cases h
      · intro h
        rcases h s rfl with rfl | rfl <;> exact ⟨_, rfl⟩
  unfold JsOptions.Valid
  rw [← hm, ← hp, ← hu]
  unfold JsOptions.config
  cases h3 : jsMacros o.macros with
  | error e1 => exact ⟨fun ⟨_, h⟩ => by (cases h), fun ⟨_, _, ⟨_, h⟩⟩ => by (cases h)⟩
  | ok m =>
    cases h1 : jsPrettyPrint o.prettyPrint with
    | error e1 => exact ⟨fun ⟨_, h⟩ => by (cases h), fun ⟨⟨_, h⟩, _⟩ => by (cases h)⟩
    | ok p =>
      cases h2 : jsUnicode o.unicodeSubstitution with
      | error e1 => exact ⟨fun ⟨_, h⟩ => by (cases h), fun ⟨_, ⟨_, h⟩, _⟩ => by (cases h)⟩
      | ok u => exact ⟨fun _ => ⟨⟨_, rfl⟩, ⟨_, rfl⟩, _, rfl⟩, fun _ => ⟨_, rfl⟩⟩

/-! ### The bindings agree -/

theorem same_many {f : PyFlags} {g : JsFlags} (hfg : f.continueOnError = !g.throwOnError)
    (ht : f.texts.message = g.texts.message) : ∀ (i : Nat) (sn : List (Str × Bool)) (rs : List (Outcome Out)) (acc : List Str),
    SameReply (f.many i sn rs acc) (g.many i sn rs acc)
  | i, [], rs, acc => by cases rs <;> exact .list acc
  | i, (latex, d) :: sn, [], acc => .list acc
  | i, (latex, d) :: sn, r :: rs, acc => by
    unfold PyFlags.many JsFlags.many
    cases r with
    | ok out => exact same_many hfg ht _ _ _ _
    | err e =>
      dsimp only
      rw [hfg, ht]
      cases g.throwOnError with
      | true => exact .error _ _
      | false => exact same_many hfg ht _ _ _ _
    | panic => exact .panic
    | fuel => exact .fuel

theorem same_crash {rs : List (Outcome Out)} {p : PyReply} {j : JsReply} (h : SameReply p j) :
    SameReply ((batchCrash rs).getD p) ((jsBatchCrash rs).getD j) := by
  induction rs with
  | nil => exact h
  | cons r rs ih =>
    cases r with
    | ok | err => exact ih
    | panic => exact .panic
    | fuel => exact .fuel

theorem same_one {f : PyFlags} {g : JsFlags} (hfg : f.continueOnError = !g.throwOnError)
    (ht : f.texts.message = g.texts.message) (latex : Str) (d : Bool) (r : Outcome Out) :
    SameReply (f.one latex d r) (g.one latex d r) := by
  unfold PyFlags.one JsFlags.one
  cases r with
  | ok out => exact .str _
  | err e =>
    dsimp only
    rw [hfg, ht]
    cases g.throwOnError with
    | true => exact .error _ _
    | false => exact .str _
  | panic => exact .panic
  | fuel => exact .fuel

theorem same_calls {f : PyFlags} {g : JsFlags} (hfg : f.continueOnError = !g.throwOnError)
    (ht : f.texts.message = g.texts.message) (fuel : Nat) (ms : List Method) : ∀ (c : Converter),
    SameReplies (pyCalls f fuel c ms) (jsCalls g fuel c ms) := by
  induction ms with
  | nil => intro c; exact .nil
  | cons m ms ih =>
    intro c
    have hs := C41_same_state f g fuel c m
    unfold pyCalls jsCalls
    rw [← hs]
    refine .cons ?_ (ih _)
    cases m with
    | withGlobalState latex d => exact same_one hfg ht ..
    | withLocalState latex d => exact same_one hfg ht ..
    | all sn => exact same_crash (same_many hfg ht ..)
    | reset => exact .nothing

/-- C48. Two objects made with the same settings, one in Python and one in JavaScript, behave alike: either both
constructors succeed, and then every sequence of calls gets the same replies; or both fail, because of the same macro,
for the same reason. -/
theorem C48_same (s : Settings) (fancy ariadne : Bool) (texts : Texts) (fmt : Rat → Str) :
    (∃ f g c, PyOptions.new { s.python with fancyError := fancy } texts fmt = .ok (f, c) ∧
      s.js.new ariadne texts fmt = .ok (g, c) ∧ Converter.new (s.asked fmt) = .ok c ∧
      ∀ fuel calls, SameReplies (pyCalls f fuel c calls) (jsCalls g fuel c calls)) ∨
    (∃ e message j, Converter.new (s.asked fmt) = .error e ∧
      PyOptions.new { s.python with fancyError := fancy } texts fmt = .error (.latexError message) ∧
      s.js.new ariadne texts fmt = .error (.latexError j) ∧
      j.message = texts.message e.1 ∧ j.context = some e.2.2 ∧
      (fancy = false → message = c!"macro" ++ decimal e.2.1 ++ c!":" ++ toMessage e.1.start (texts.message e.1) e.2.2)) := by
  have h1 : PyOptions.config { s.python with fancyError := fancy } fmt = .ok (s.asked fmt) := C48_python s fmt
  have h2 := C48_javascript s fmt
  unfold PyOptions.new JsOptions.new
  rw [h1, h2]
  cases h3 : Converter.new (s.asked fmt) with
  | ok c =>
    refine .inl ⟨_, _, c, by simp only [bind, Except.bind, h3]; rfl, by simp only [bind, Except.bind, h3]; rfl, rfl, ?_⟩
    intro fuel calls
    refine same_calls ?_ rfl fuel calls c
    show s.showErrors.getD false = !(s.showErrors.map not).getD true
    cases s.showErrors with
    | none => rfl
    | some b => cases b <;> rfl
  | error e =>
    obtain ⟨e, idx, context⟩ := e
    refine .inr ⟨_, _, _, rfl, by simp only [bind, Except.bind, h3]; rfl, by simp only [bind, Except.bind, h3]; rfl, rfl, rfl, ?_⟩
    rintro rfl
    rfl

/-- C48. An option which is not valid has no effect but the error: no object is made. -/
example : PyOptions.config { prettyPrint := c!"yes" } (fun _ => []) = .error (.invalid c!"pretty_print" c!"yes") := rfl

example : ¬ JsOptions.Valid { macros := some [.entry (some c!"R") none] } := by
  rintro ⟨-, -, h⟩
  obtain ⟨k, v, e⟩ := h _ rfl _ List.mem_cons_self
  cases e

/-- Settings for the example -/
def exampleSettings : Settings where
  macros := some [(c!"R", c!"\\mathbb{R}")]
  showErrors := some true
  prettyPrint := some .auto

example : (match Converter.new (exampleSettings.asked fun _ => []) with | .ok _ => true | .error _ => false) = true := by
  decide +kernel

end Verif

import Verif.Model.Parser
import Verif.Props.Groups
import Verif.Spec.Expansion
/-! How the parser reads the arguments of a macro and replaces the call by the body. -/
namespace Verif
open Model Spec Lexer' TokenQueue

/-- What reading tokens leaves as it is -/
structure SameDefs (q q' : TokenQueue) : Prop where
  stores : q'.stores = q.stores
  count : q'.equationCount = q.equationCount
  labels : q'.labelMap = q.labelMap

theorem SameDefs.refl (q) : SameDefs q q := ⟨rfl, rfl, rfl⟩
theorem SameDefs.trans {q q1 q2} (a : SameDefs q q1) (b : SameDefs q1 q2) : SameDefs q q2 :=
  ⟨b.stores.trans a.stores, b.count.trans a.count, b.labels.trans a.labels⟩

theorem Ext.same {cfg q q' queue} (h : Ext cfg { q with queue := queue } q') : SameDefs q q' := by
  obtain ⟨_, _, _, h1, h2, h3, _⟩ := h
  exact ⟨h1, h2, h3⟩

theorem next_same {cfg q t q'} (hq : QInv q) (h : nextKeepingName cfg q = .ok t q') : SameDefs q q' ∧ QInv q' := by
  obtain ⟨pre, x, post, hs, hl, -, -⟩ := hq.split
  rcases next_spec cfg q hq hs hl with ⟨q1, h1, h2, h3, -⟩ | ⟨e, q1, h1, -⟩
  · rw [h1] at h; cases h; exact ⟨h2.same, h3⟩
  · rw [h1] at h; cases h

theorem nextAny_same {cfg q t q'} (hq : QInv q) (h : nextAnyKeepingName cfg q = .ok t q') : SameDefs q q' ∧ QInv q' := by
  obtain ⟨pre, x, post, hs, -⟩ := hq.split
  obtain ⟨t0, rest, h0⟩ : ∃ t0 rest, q.queue = t0 :: rest := by rw [hs]; cases pre <;> simp
  rcases nextAny_spec cfg q hq h0 with ⟨q1, h1, h2, h3, -⟩ | ⟨e, q1, h1, -⟩
  · rw [h1] at h; cases h; exact ⟨h2.same, h3⟩
  · rw [h1] at h; cases h

theorem recordGroupLoop_same {cfg keep} (fuel) : ∀ {d acc q r q'}, QInv q →
    recordGroupLoop keep fuel d acc cfg q = .ok r q' → SameDefs q q' := by
  induction fuel with
  | zero => intro d acc q r q' _ h; cases h
  | succ fuel ih =>
    intro d acc q r q' hq h
    rw [recordGroupLoop_succ] at h
    simp only [St.bind] at h
    cases hr : (if keep = true then nextAnyKeepingName else nextKeepingName) cfg q with
    | ok t q1 =>
      rw [hr] at h
      simp only at h
      have h1 : SameDefs q q1 ∧ QInv q1 := by
        cases keep with
        | true => exact nextAny_same hq hr
        | false => exact next_same hq hr
      obtain ⟨tok, span, name⟩ := t
      cases tok with
      | groupEnd =>
        change (if d = 0 then (pure (acc, span.stop) : Q _) else _) cfg q1 = _ at h
        split at h
        · cases h; exact h1.1
        · exact h1.1.trans (ih h1.2 h)
      | eoi => cases h
      | _ => exact h1.1.trans (ih h1.2 h)
    | err e q1 => rw [hr] at h; cases h
    | panic => rw [hr] at h; cases h
    | fuel => rw [hr] at h; cases h

/-! ### The arguments which have been read -/

/-- What is stored for the arguments read so far -/
structure Holds (a : CmdArgs) (args : List (List QueuedTok)) : Prop where
  tokens : a.tokens = args.flatten
  length : a.offsets.length = 9
  offsets : ∀ i, i < args.length → a.offsets[i]? = some (args.take (i + 1)).flatten.length
  zero : ∀ i, args.length ≤ i → i < 9 → a.offsets[i]? = some 0

theorem Holds.clear (a : CmdArgs) : Holds a.clear [] := ⟨rfl, rfl, fun i hi => absurd hi (Nat.not_lt_zero i), fun i _ hi => by
    show (List.replicate 9 0)[i]? = some 0
    rw [List.getElem?_replicate, if_pos hi]⟩

theorem Holds.get {a args} (h : Holds a args) {i} (hi : i < args.length) : a.get i = args[i] := by
  have h1 := h.offsets i hi
  have hstart : (if i = 0 then 0 else (a.offsets[i - 1]?).getD 0) = (args.take i).flatten.length := by
    by_cases h0 : i = 0
    · subst h0; simp
    · rw [if_neg h0, h.offsets (i - 1) (by omega), show i - 1 + 1 = i by omega]; rfl
  unfold CmdArgs.get
  simp only [hstart, h1, Option.getD_some, h.tokens]
  have hsucc : args.take (i + 1) = args.take i ++ [args[i]] := by
    rw [List.take_add_one, List.getElem?_eq_getElem hi]; rfl
  have hflat : args.flatten = (args.take i).flatten ++ (args[i] ++ (args.drop (i + 1)).flatten) := by
    have := congrArg List.flatten (List.take_append_drop i args)
    rw [List.drop_eq_getElem_cons hi, List.flatten_append, List.flatten_cons] at this
    exact this.symm
  have hlen : (args.take (i + 1)).flatten.length = (args.take i).flatten.length + args[i].length := by
    rw [hsucc, List.flatten_append, List.length_append]; simp only [List.flatten_cons, List.flatten_nil, List.append_nil]
  unfold sliceGet
  rw [hlen, hflat, if_pos ⟨by omega, by simp only [List.length_append]; omega⟩, List.drop_left, Nat.add_sub_cancel_left,
    List.take_left]
  rfl

theorem Holds.finish {a args} {toks : List QueuedTok} (h : Holds a args) (hl : args.length < 9) :
    Holds (CmdArgs.finishArg ⟨a.tokens ++ toks, a.offsets⟩ args.length) (args ++ [toks]) := by
  unfold CmdArgs.finishArg
  rw [if_pos (by rw [h.length]; exact hl)]
  refine ⟨by simp [h.tokens], by simp [h.length], fun i hi => ?_, fun i hi h9 => ?_⟩
  case refine_2 =>
    simp only [List.length_append, List.length_singleton] at hi
    rw [List.getElem?_set_ne (by omega)]
    exact h.zero i (by omega) h9
  simp only [List.length_append, List.length_singleton] at hi
  by_cases heq : i = args.length
  · subst heq
    rw [List.getElem?_set_self (by rw [h.length]; exact hl), List.take_of_length_le (by simp), h.tokens]
    simp
  · simp only
    rw [List.getElem?_set_ne (fun h => heq h.symm), h.offsets i (by omega), List.take_append_of_le_length (by omega)]

variable {cfg : ParserConfig}

theorem collectCmdArg_group {t : QueuedTok} (h : t.tok = .groupBegin) : collectCmdArg t = (do
    let (toks, _) ← liftQ (TokenQueue.recordGroup true)
    St.modify fun s => { s with cmdArgs := ⟨s.cmdArgs.tokens ++ toks, s.cmdArgs.offsets⟩ }) := by
  unfold collectCmdArg; rw [h]

theorem collectCmdArg_eoi {t : QueuedTok} (h : t.tok = .eoi) :
    collectCmdArg t = P.fail t.span .expectedArgumentGotEOI := by
  unfold collectCmdArg; rw [h]

theorem collectCmdArg_other {t : QueuedTok} (h : t.tok ≠ .groupBegin) (h' : t.tok ≠ .eoi) :
    collectCmdArg t = St.modify fun s => { s with cmdArgs := s.cmdArgs.push t } := by
  unfold collectCmdArg
  split
  · rename_i hx; exact absurd hx h
  · rename_i hx; exact absurd hx h'
  · rfl

theorem readCmdArg_spec {s : PState} {args} (hq : QInv s.q) (ha : Holds s.cmdArgs args) (hl : args.length < 9) :
    (∃ arg q' a', readCmdArg args.length cfg s = .ok () { s with q := q', cmdArgs := a' } ∧ QInv q' ∧
      SameDefs s.q q' ∧ ArgAt (upcoming cfg s.q) arg (upcoming cfg q') ∧ Holds a' (args ++ [arg])) ∨
    (∃ e s', readCmdArg args.length cfg s = .err e s' ∧ ArgFails cfg (upcoming cfg s.q) e) := by
  obtain ⟨pre, t, post, hs, hlen, hw, hpre⟩ := hq.split
  have hs' : s.q.queue = (pre ++ [t]) ++ post := by rw [hs]; simp
  have hfirst : FirstAt (upcoming cfg s.q) NonWs pre.length t := by
    refine ⟨upcoming_head (by rw [hs, List.getElem?_append_right (by omega), Nat.sub_self]; rfl), hw, fun j hj => ?_⟩
    refine ⟨pre[j], upcoming_head (by rw [hs, List.getElem?_append_left hj, List.getElem?_eq_getElem hj]), ?_⟩
    unfold NonWs
    rw [hpre _ (List.getElem_mem hj)]; simp
  unfold readCmdArg
  simp only [bind, St.bind, liftQ, St.zoom]
  rcases next_spec cfg s.q hq hs hlen with ⟨q1, h1, h2, h3, h4⟩ | ⟨e, q1, h1, h2, h3⟩
  · rw [h1]
    have hup : upcoming cfg q1 = (upcoming cfg s.q).drop (pre.length + 1) := by
      rw [h2.upcoming_drop hs']; simp
    by_cases hg : t.tok.unwrapMath = .groupBegin
    · simp only [collectCmdArg_group (t := t.unwrapMath) hg, bind, St.bind, liftQ, St.zoom]
      rcases C39_group cfg true q1 h3 with ⟨toks, stop, q2, l, close, g1, g2, g3, g4, g5, g6⟩ | ⟨e, q2, g1, g2⟩
      · rw [g1]
        refine Or.inl ⟨l, q2, _, rfl, g2, h2.same.trans (recordGroupLoop_same _ h3 g1), ?_, ?_⟩
        · rw [g6, hup, Stream.drop_drop]
          exact .group hfirst hg (hup ▸ g3)
        · have : toks = l := g4
          subst this
          exact ha.finish hl
      · rw [g1]
        refine Or.inr ⟨e, _, rfl, ?_⟩
        rw [hup] at g2
        rcases g2 with ⟨l, eoi, k1, rfl⟩ | ⟨i, k⟩ | ⟨m, x, name, k1, k3, rfl⟩
        · exact .unclosed hfirst hg k1
        · exact .lexer k
        · exact .unknownInside hfirst hg k1 k3
    by_cases hg2 : t.tok.unwrapMath = .eoi
    · simp only [collectCmdArg_eoi (t := t.unwrapMath) hg2]
      exact Or.inr ⟨_, _, rfl, ArgFails.missing (t := t) hfirst hg2⟩
    · simp only [collectCmdArg_other (t := t.unwrapMath) hg hg2]
      refine Or.inl ⟨[t.unwrapMath], q1, _, rfl, h3, h2.same, ?_, ha.finish hl⟩
      rw [hup]
      exact .token hfirst hg hg2
  · rw [h1]
    refine Or.inr ⟨e, _, rfl, ?_⟩
    rcases h3 with h3 | ⟨name, h3, h4, rfl⟩
    · obtain ⟨i, hi⟩ := h2.stream_error hs' h3
      exact .lexer hi
    · exact ArgFails.unknown (t := t) hfirst h3 h4

theorem readCmdArgsFrom_spec (todo : Nat) : ∀ {s : PState} {args}, QInv s.q → Holds s.cmdArgs args →
    args.length + todo ≤ 9 →
    (∃ new q' a', readCmdArgsFrom todo args.length cfg s = .ok () { s with q := q', cmdArgs := a' } ∧ QInv q' ∧
      SameDefs s.q q' ∧ ArgsAt todo (upcoming cfg s.q) new (upcoming cfg q') ∧ Holds a' (args ++ new)) ∨
    (∃ e s', readCmdArgsFrom todo args.length cfg s = .err e s' ∧ ArgsFail cfg todo (upcoming cfg s.q) e) := by
  induction todo with
  | zero =>
    intro s args hq ha _
    exact Or.inl ⟨[], s.q, s.cmdArgs, rfl, hq, .refl _, .nil, by rw [List.append_nil]; exact ha⟩
  | succ todo ih =>
    intro s args hq ha hl
    unfold readCmdArgsFrom
    simp only [bind, St.bind]
    rcases readCmdArg_spec hq ha (by omega) with ⟨arg, q1, a1, h1, h2, h3, h4, h5⟩ | ⟨e, s1, h1, h2⟩
    · rw [h1]
      have := ih (s := { s with q := q1, cmdArgs := a1 }) h2 h5 (by simp; omega)
      simp only [List.length_append, List.length_singleton] at this
      rcases this with ⟨new, q2, a2, g1, g2, g3, g4, g5⟩ | ⟨e, s2, g1, g2⟩
      · exact Or.inl ⟨arg :: new, q2, a2, g1, g2, h3.trans g3, .cons h4 g4, by simpa using g5⟩
      · exact Or.inr ⟨e, s2, g1, .later h4 g2⟩
    · rw [h1]
      exact Or.inr ⟨e, s1, rfl, .here h2⟩

theorem _root_.Verif.Spec.ArgsAt.length {n u args u'} (h : ArgsAt n u args u') : args.length = n := by
  induction h with
  | nil => rfl
  | cons _ _ ih => simp [ih]

theorem argTokens_eq {a args i} (h : Holds a args) (hi : i < 9) (span : Span) :
    argTokens (a.get i) span = argument args span i := by
  by_cases hl : i < args.length
  · rw [h.get hl]
    unfold argTokens argument
    rw [List.getElem?_eq_getElem hl]
    cases args[i] <;> rfl
  · have : a.get i = [] := by
      unfold CmdArgs.get sliceGet
      simp only [h.zero i (by omega) hi, Option.getD_some]
      generalize (if i = 0 then 0 else (a.offsets[i - 1]?).getD 0) = x
      by_cases hx : x ≤ 0 ∧ 0 ≤ a.tokens.length
      · rw [if_pos hx]; simp
      · rw [if_neg hx]; rfl
    rw [this]
    unfold argTokens argument
    rw [List.getElem?_eq_none (by omega)]

end Verif

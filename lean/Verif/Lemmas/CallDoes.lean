import Verif.Lemmas.CallTokens
import Verif.Lemmas.GrammarArms
/-! The parser at a call of a macro. -/
namespace Verif
open Model Spec Lexer' TokenQueue

variable {cfg : ParserConfig} {k : Ctx} {ts ts' fol : List Tk} {l : Loc}

/-- After a call, the body comes with the arguments in it. -/
theorem expanded_is {s s' : PState} {args : List CallArg} {body : List RecordedToken} {sp : Span} {left : Nat}
    (hs : Is cfg s (args.flatMap CallArg.tokens ++ fol) (k.at l)) (hok : ∀ a ∈ args, a.ok = true)
    (hf : looseHead fol = true) (hl : l.left = left + 1) (h : Expanded cfg args.length body sp s s') :
    Is cfg s' ((if body = [] then [⟨.relax, false⟩] else
        expandTks args false (body.map (pieceOf (k.stores.resolveCommand cfg.builtin)))) ++ fol)
      (k.at { l with left := left }) := by
  obtain ⟨as, rest, h1, h2⟩ := h.tokens
  obtain ⟨as', rest', g1, g2, g3, -⟩ := callArgs_at (cfg := cfg) hok hs.comes
  obtain ⟨rfl, rfl⟩ := C14_arguments_unique h1 g1
  have hstores : s.q.stores = k.stores := congrArg Ctx.stores hs.ctx
  have hleft : s.expansionsLeft = l.left := congrArg Ctx.expansionsLeft hs.ctx
  obtain ⟨j, hj⟩ := argsAt_drop h1
  have hclean : ∀ i, ∃ qt, upcoming cfg s'.q i = .ok qt := by
    intro i
    rw [h2]
    generalize expansion _ as sp body = x
    unfold Stream.push
    split
    · exact ⟨_, rfl⟩
    · rw [hj]; exact hs.clean _
  refine ⟨h.queue, hclean, ?_, ?_⟩
  · rw [h2, hstores]
    cases body with
    | nil => rw [if_pos rfl]; exact comes_push_tok (q := ⟨.relax, sp, none⟩) g2
    | cons r body =>
      rw [if_neg (by simp)]
      exact body_comes g3 hf g2 (r :: body) false
  · have e1 := h.left
    rw [hleft, hl] at e1
    have e2 : s'.expansionsLeft = left := by omega
    have e3 : s'.ctx = { s.ctx with expansionsLeft := left } := by
      unfold PState.ctx
      rw [h.stores, h.count, h.labels, h.transform, h.rightBoundaryHack, h.env, h.style, h.verticalLineDef, e2]
    rw [e3, hs.ctx]; rfl

/-- What a call expands to: `\relax` instead of an empty body -/
def called (args : List CallArg) : List Piece → List Tk
  | [] => [⟨.relax, false⟩]
  | body => expandTks args false body

theorem param_mem {known : Str → Option Token} {body : List RecordedToken} {i : Nat}
    (h : RecordedToken.token (.customCmdArg i) ∈ body) : Piece.param i ∈ body.map (pieceOf known) :=
  List.mem_map.2 ⟨_, h, rfl⟩

theorem called_eq {args : List CallArg} {known : Str → Option Token} {body : List RecordedToken} :
    (if body = [] then [⟨.relax, false⟩] else expandTks args false (body.map (pieceOf known))) =
      called args (body.map (pieceOf known)) := by
  cases body with
  | nil => rfl
  | cons r body => rw [if_neg (by simp)]; rfl

theorem argsFail_none {s : PState} {args : List CallArg} {c : Ctx} {e}
    (hs : Is cfg s (args.flatMap CallArg.tokens ++ fol) c) (hok : ∀ a ∈ args, a.ok = true) :
    ¬ ArgsFail cfg args.length (upcoming cfg s.q) e := by
  intro he
  obtain ⟨-, -, -, -, -, h⟩ := callArgs_at (cfg := cfg) hok hs.comes
  obtain ⟨i, e', hi⟩ := h e he
  obtain ⟨qt, hq⟩ := hs.clean i
  rw [hi] at hq; cases hq

theorem arm_call {t : Token} {args : List CallArg} {body : List Piece} {sp : Span} {pa : ParseAs} {prev nx : Class}
    (hu : t.unwrapMath = t) (hM : macrosOf cfg k.stores t = some (args.length, body)) (hn : args.length ≤ 9)
    (hp : ∀ i, .param i ∈ body → i < 9) (hok : ∀ a ∈ args, a.ok = true) (hf : looseHead fol = true) :
    Does cfg k (fun n => (parser n).parseArm ⟨t, sp⟩ pa prev nx) (args.flatMap CallArg.tokens ++ fol) l
      (called args body ++ fol) (expandOne l >>= fun l => .ok (.expansion, l)) := by
  have main : ∀ (m : P Parsed) (rb : List RecordedToken),
      body = rb.map (pieceOf (k.stores.resolveCommand cfg.builtin)) →
      (∀ s, QInv s.q → s.q.stores = k.stores →
        (s.expansionsLeft = 0 ∧ m cfg s = .err (sp.err .tooManyExpansions) s) ∨
        (0 < s.expansionsLeft ∧ ∃ s', m cfg s = .ok .expansion s' ∧ Expanded cfg args.length rb sp s s') ∨
        (0 < s.expansionsLeft ∧ ∃ e s', m cfg s = .err e s' ∧ ArgsFail cfg args.length (upcoming cfg s.q) e)) →
      Does cfg k (fun _ => m) (args.flatMap CallArg.tokens ++ fol) l
        (called args body ++ fol) (expandOne l >>= fun l => .ok (.expansion, l)) := by
    intro m rb hb h
    unfold expandOne
    cases hl : l.left with
    | zero =>
      intro s hs
      have hleft : s.expansionsLeft = l.left := congrArg Ctx.expansionsLeft hs.ctx
      rcases h s hs.inv (congrArg Ctx.stores hs.ctx) with ⟨-, h2⟩ | ⟨h1, -⟩ | ⟨h1, -⟩
      · exact ⟨0, _, s, fun _ _ => h2, rfl⟩
      · omega
      · omega
    | succ left =>
      intro s hs
      have hleft : s.expansionsLeft = l.left := congrArg Ctx.expansionsLeft hs.ctx
      rcases h s hs.inv (congrArg Ctx.stores hs.ctx) with ⟨h1, -⟩ | ⟨-, s', h1, h2⟩ | ⟨-, e, s', -, h2⟩
      · omega
      · refine ⟨0, s', fun _ _ => h1, ?_⟩
        have := expanded_is hs hok hf hl h2
        rw [called_eq, ← hb] at this
        exact this
      · exact (argsFail_none hs hok h2).elim
  cases t with
  | customCmd n toks =>
    obtain ⟨rfl, hb⟩ : n = args.length ∧
        toks.map (fun t => pieceOf (k.stores.resolveCommand cfg.builtin) (.token t)) = body := by
      simpa [macrosOf] using hM
    refine main (expandCustomCmd args.length toks sp) (toks.map .token) ?_ fun s hq hst => ?_
    · rw [← hb, List.map_map]; rfl
    · refine C14_expansion_builtin s hq args.length sp toks ⟨hn, fun i hi => hp i ?_⟩
      have := param_mem (known := k.stores.resolveCommand cfg.builtin) hi
      rw [List.map_map] at this
      rw [← hb]; exact this
  | customCmdRef src n cls start stop =>
    obtain ⟨rb, hrb, rfl, hb⟩ : ∃ rb, k.stores.getBody src start stop = some rb ∧ n = args.length ∧
        rb.map (pieceOf (k.stores.resolveCommand cfg.builtin)) = body := by
      simpa [macrosOf] using hM
    refine main (expandCustomCmdRef src args.length start stop sp) rb hb.symm fun s hq hst => ?_
    refine C14_expansion s hq src args.length start stop sp rb (by rw [hst]; exact hrb) ⟨hn, fun i hi => hp i ?_⟩
    rw [← hb]; exact param_mem hi
  | mathOrTextMode t c =>
    cases t with
    | customCmd n toks => cases hu
    | _ => cases hM
  | _ => cases hM


/-- A call, and then the first token of what it expands to -/
theorem does_call {t : Token} {args : List CallArg} {body : List Piece} {sp : Span} {prev : Class} {t1 : Tk}
    {tl fin : List Tk} {xs : List Tk} (hk : k.Plain)
    (hu : t.unwrapMath = t) (hM : macrosOf cfg k.stores t = some (args.length, body)) (hn : args.length ≤ 9)
    (hp : ∀ i, .param i ∈ body → i < 9) (hok : ∀ a ∈ args, a.ok = true) (hf : looseHead fol = true)
    (hlead : HasLead fol) (hx : Loosens xs (called args body)) (he : xs ++ fol = t1 :: tl)
    (hw : t1.tok.isWs = false) (hnm : Named t1.tok.unwrapMath = true)
    {R : Loc → Except LatexErrKind ((Class × Node) × Loc)}
    (h : ∀ l', expandOne l = .ok l' → ∀ sp, 
      Does cfg k (fun n => (parser n).parseToken ⟨t1.tok.unwrapMath, sp⟩ .sequence prev) tl l' fin (R l')) :
    Does cfg k (fun n => (parser n).parseToken ⟨t, sp⟩ .sequence prev) (args.flatMap CallArg.tokens ++ fol) l fin
      (expandOne l >>= R) := by
  refine Does.step (G := fun n => (parser n).parseTokenStep ⟨t, sp⟩ .sequence prev) (fun n => rfl) ?_
  have hx' : ∀ l', Does cfg k (fun n => P.next >>= fun t => (parser n).parseToken t .sequence prev) (t1 :: tl) l' fin (R l') →
      Does cfg k (fun n => P.next >>= fun t => (parser n).parseToken t .sequence prev) (called args body ++ fol) l' fin (R l') := by
    intro l' hd
    rw [← he] at hd
    have hstep : ∀ s c, Is cfg s (called args body ++ fol) c → Is cfg s (xs ++ fol) c :=
      fun s c hs => ⟨hs.inv, hs.clean, comes_loosen hx hs.comes, hs.ctx⟩
    unfold Does at hd ⊢
    cases hr : R l' with
    | error e => rw [hr] at hd; exact fun s hs => hd s (hstep s _ hs)
    | ok p => rw [hr] at hd; exact fun s hs => hd s (hstep s _ hs)
  refine Does.seq (m := fun n => (parser n).parseOneToken ⟨t, sp⟩ .sequence prev) (ts' := called args body ++ fol)
    (r := expandOne l >>= fun l => .ok (.expansion, l)) ?_ ?_ ?_
  · refine Does.peekClass_bind (HasLead.append hlead) hk ?_
    refine Does.get_bind fun s hs => ?_
    exact arm_call hu hM hn hp hok hf
  · intro e he
    cases hl : expandOne l with
    | error e' => rw [hl] at he; cases he; rfl
    | ok l' => rw [hl] at he; cases he
  · intro p l' he
    cases hl : expandOne l with
    | error e' => rw [hl] at he; cases he
    | ok l2 =>
      rw [hl] at he; cases he
      exact hx' l' (Does.next_bind hw hnm (h l' hl))

end Verif

import Verif.Lemmas.Stores
/-!
Properties C09, C11, C12 and C13: where command names get their meaning, and how long it lasts.

A session is a list of operations (`Spec.DefOp`): lookups, definitions, the end of a snippet, a
reset. `Spec.nameMeaning builtin s k name` is what the name means, as a tree cut off at depth `k`.
-/
namespace Verif
open Model Spec

/-! ### The built-in commands -/

def notRefB : Token → Bool
  | .customCmdRef .. => false
  | _ => true

theorem notRefB_spec {t} (h : notRefB t = true) : NotRef (.token t) := by
  unfold NotRef
  split
  · rename_i heq; cases heq; simp [notRefB] at h
  · trivial

theorem lookup_all {α β} [BEq α] [LawfulBEq α] {l : List (α × β)} {P : β → Bool}
    (h : l.all (fun e => P e.2) = true) {a b} (hl : l.lookup a = some b) : P b = true := by
  induction l with
  | nil => simp at hl
  | cons e l ih =>
    obtain ⟨x, v⟩ := e
    simp only [List.all_cons, Bool.and_eq_true] at h
    rw [List.lookup_cons] at hl
    split at hl
    · cases hl; exact h.1
    · exact ih h.2 hl

theorem commands_notRef : commands.all (fun e => notRefB e.2) = true := by decide +kernel
theorem unreliable_notRef : unreliableCmds.all (fun e => notRefB e.2) = true := by decide +kernel
theorem substituted_notRef : substitutedCmds.all (fun e => notRefB e.2) = true := by
  decide +kernel

/-- No built-in command is a reference to a stored body, whatever the configuration. -/
theorem builtin_ok (cfg : ParserConfig) : BuiltinOk cfg.builtin := by
  intro n t h
  apply notRefB_spec
  unfold ParserConfig.builtin resolveBuiltinCmd at h
  simp only [Option.or_eq_some_iff] at h
  rcases h with h | ⟨-, h | ⟨-, h | ⟨-, h⟩⟩⟩
  · split at h
    · exact lookup_all unreliable_notRef h
    · cases h
  · split at h
    · exact lookup_all substituted_notRef h
    · cases h
  · exact lookup_all commands_notRef h
  · split at h
    · cases h; rfl
    · cases h

/-! ### C09 -/

/-- The first entry which is there. -/
def firstDefined {α} : List (Option α) → Option α
  | [] => none
  | some a :: _ => some a
  | none :: l => firstDefined l

/-- C09: a name means its snippet-local definition if there is one, else the document definition,
else the configured macro, else the built-in command, else nothing. -/
theorem C09_order (cfg : ParserConfig) (s : CmdStores) (name : Str) :
    s.resolveCommand cfg.builtin name =
      firstDefined
        [(s.loc.map.get name).map fun d => .customCmdRef .loc d.numArgs d.cls d.start d.stop,
         (s.document.map.get name).map fun d =>
           .customCmdRef .document d.numArgs d.cls d.start d.stop,
         (s.config.map.get name).map fun d =>
           .customCmdRef .config d.numArgs d.cls d.start d.stop,
         cfg.builtin name] := by
  unfold CmdStores.resolveCommand CustomCmds.get
  cases s.loc.map.get name <;> cases s.document.map.get name <;> cases s.config.map.get name <;>
    cases cfg.builtin name <;> rfl

theorem resolve_congr {builtin} {s s' : CmdStores} {n : Str} (hc : s'.config = s.config)
    (hd : s'.document.map.get n = s.document.map.get n)
    (hl : s'.loc.map.get n = s.loc.map.get n) :
    s'.resolveCommand builtin n = s.resolveCommand builtin n := by
  unfold CmdStores.resolveCommand CustomCmds.get
  rw [hc, hd, hl]

theorem nameMeaning_extend {builtin} {s s' : CmdStores} {n : Str} (hb : BuiltinOk builtin)
    (inv : StoresInv s) (hpre : ∀ src, bodies s src <+: bodies s' src)
    (hres : s'.resolveCommand builtin n = s.resolveCommand builtin n) (k : Nat) :
    nameMeaning builtin s' k n = nameMeaning builtin s k n := by
  unfold nameMeaning
  rw [hres]
  cases h : s.resolveCommand builtin n with
  | none => rfl
  | some t =>
    simp only [Option.map_some, Option.some.injEq]
    exact meaning_extend hpre inv.range k _ (resolve_inRange hb inv h)

/-- C09: a definition does not change what any other name means, at any depth of unfolding. -/
theorem C09_other_names (cfg : ParserConfig) (hc : ConfigOk cfg.customCmds) (s s' : DefState)
    (hr : DefReachable cfg.builtin cfg.customCmds s)
    (name : Str) (numArgs : Nat) (body : List BodyItem) (cls : Option Class)
    (replace isGlobal : Bool)
    (h : s.apply cfg.builtin (.define name numArgs body cls replace isGlobal) = some s')
    (other : Str) (hne : other ≠ name) (k : Nat) :
    nameMeaning cfg.builtin s'.stores k other = nameMeaning cfg.builtin s.stores k other := by
  have hb := builtin_ok cfg
  have inv := reachable_inv hb hc hr
  simp only [DefState.apply, Option.bind_eq_some_iff, Option.map_eq_some_iff] at h
  obtain ⟨b, hbody, st, hst, rfl⟩ := h
  obtain ⟨-, hcfg, hpre, -, -, -, -, hoth⟩ :=
    define_spec inv.stores (recordedBody_inRange inv.held hbody) hst
  exact nameMeaning_extend hb inv.stores hpre
    (resolve_congr hcfg (hoth other hne).1 (hoth other hne).2) k

theorem ref_of_map {builtin} {s : CmdStores} {name : Str} {d : CmdDef} {isGlobal : Bool}
    (hm : (s.store (if isGlobal then CmdSource.document else CmdSource.loc)).map.get name = some d)
    (hg : isGlobal = true → s.loc.map.get name = none) :
    s.resolveCommand builtin name =
      some (.customCmdRef (if isGlobal then CmdSource.document else CmdSource.loc)
        d.numArgs d.cls d.start d.stop) := by
  unfold CmdStores.resolveCommand CustomCmds.get
  cases isGlobal with
  | true =>
    rw [hg rfl]
    simp only [if_true, CmdStores.store] at hm
    rw [hm]; rfl
  | false =>
    simp only [Bool.false_eq_true, if_false, CmdStores.store] at hm
    rw [hm]; rfl

/-- C09, C11: a definition takes effect right away, and the name then means the recorded body.
This also holds for a global definition of a name with a local definition. -/
theorem C09_defined (cfg : ParserConfig) (hc : ConfigOk cfg.customCmds) (s s' : DefState)
    (hr : DefReachable cfg.builtin cfg.customCmds s)
    (name : Str) (numArgs : Nat) (body : List BodyItem) (cls : Option Class)
    (replace isGlobal : Bool) (b : List RecordedToken) (hb : recordedBody s.held body = some b)
    (h : s.apply cfg.builtin (.define name numArgs body cls replace isGlobal) = some s') (k : Nat) :
    nameMeaning cfg.builtin s'.stores (k+1) name =
      some (.macro numArgs cls (b.map (meaning (bodies s.stores) k))) := by
  have hbo := builtin_ok cfg
  have inv := reachable_inv hbo hc hr
  simp only [DefState.apply, Option.bind_eq_some_iff, Option.map_eq_some_iff] at h
  obtain ⟨b', hbody, st, hst, rfl⟩ := h
  rw [hb] at hbody; cases hbody
  obtain ⟨-, -, -, -, -, ⟨src, start, stop, rfl, hmap, hle, hlen, hmean⟩, hg, -⟩ :=
    define_spec inv.stores (recordedBody_inRange inv.held hb) hst
  unfold nameMeaning
  rw [ref_of_map hmap hg]
  simp only [Option.map_some]
  rw [meaning_ref ⟨hle, hlen⟩, hmean]

/-! ### C12 -/

theorem notLocal_iff (t : RecordedToken) : NotLocal t ↔ ¬ RefersToLocal t := by
  unfold NotLocal RefersToLocal
  split <;> simp

/-- C12: no stored document definition refers to the snippet-local store, at any time. -/
theorem C12_no_local_reference (cfg : ParserConfig) (hc : ConfigOk cfg.customCmds) (s : DefState)
    (hr : DefReachable cfg.builtin cfg.customCmds s) (t : RecordedToken)
    (ht : t ∈ s.stores.document.tokens) : ¬ RefersToLocal t :=
  (notLocal_iff t).1 ((reachable_inv (builtin_ok cfg) hc hr).stores.docNoLocal t ht)

theorem meaning_endSnippet {s : CmdStores} (inv : StoresInv s) (k : Nat) (t : RecordedToken)
    (ht : NotLocal t) : meaning (bodies { s with loc := {} }) k t = meaning (bodies s) k t := by
  refine meaning_local ?_ ?_ k t ht
  · intro src hsrc; cases src <;> first | rfl | exact absurd rfl hsrc
  · intro src hsrc t ht
    cases src
    · exact notLocal_of_notRef (inv.config.noRefs t ht)
    · exact inv.docNoLocal t ht
    · exact absurd rfl hsrc

/-- C12: a definition made global still means, after the end of the snippet, what its body meant
when it was defined with the local definitions still available. -/
theorem C12_self_contained (cfg : ParserConfig) (hc : ConfigOk cfg.customCmds) (s s' s'' : DefState)
    (hr : DefReachable cfg.builtin cfg.customCmds s)
    (name : Str) (numArgs : Nat) (body : List BodyItem) (cls : Option Class) (replace : Bool)
    (b : List RecordedToken) (hb : recordedBody s.held body = some b)
    (h : s.apply cfg.builtin (.define name numArgs body cls replace true) = some s')
    (h' : s'.apply cfg.builtin .endSnippet = some s'') (k : Nat) :
    nameMeaning cfg.builtin s''.stores (k+1) name =
      some (.macro numArgs cls (b.map (meaning (bodies s.stores) k))) := by
  have hbo := builtin_ok cfg
  have inv := reachable_inv hbo hc hr
  have inv' := apply_inv hbo inv h
  have hdef := C09_defined cfg hc s s' hr name numArgs body cls replace true b hb h k
  cases h'
  simp only [DefState.apply, Option.bind_eq_some_iff, Option.map_eq_some_iff] at h
  obtain ⟨b', hbody, st, hst, rfl⟩ := h
  obtain ⟨-, -, -, -, -, ⟨src, start, stop, rfl, hmap, hle, hlen, hmean⟩, hg, -⟩ :=
    define_spec inv.stores (recordedBody_inRange inv.held hbody) hst
  rw [← hdef]
  unfold nameMeaning
  rw [ref_of_map hmap hg]
  have : ({ st with loc := {} } : CmdStores).resolveCommand cfg.builtin name =
      some (.customCmdRef (if true then CmdSource.document else CmdSource.loc)
        numArgs cls start stop) :=
    ref_of_map (s := { st with loc := {} }) (isGlobal := true) (d := ⟨numArgs, cls, start, stop⟩)
      hmap (fun _ => rfl)
  rw [this]
  simp only [Option.map_some, Option.some.injEq]
  exact meaning_endSnippet inv'.stores _ _ trivial

/-! ### C13 -/

theorem apply_within {builtin s op s'} (hb : BuiltinOk builtin) (inv : DefInv s)
    (hop : op.withinSnippet) (h : DefState.apply builtin s op = some s') :
    (∀ src, bodies s.stores src <+: bodies s'.stores src) ∧ (∀ t ∈ s.held, t ∈ s'.held) ∧
      s'.stores.config = s.stores.config := by
  cases op with
  | lookup name =>
    simp only [DefState.apply, Option.map_eq_some_iff] at h
    obtain ⟨t, ht, rfl⟩ := h
    exact ⟨fun _ => List.prefix_refl _, fun t ht => List.mem_cons_of_mem _ ht, rfl⟩
  | define name numArgs body cls replace isGlobal =>
    simp only [DefState.apply, Option.bind_eq_some_iff, Option.map_eq_some_iff] at h
    obtain ⟨b, hbody, st, hst, rfl⟩ := h
    obtain ⟨-, hcfg, hpre, -⟩ := define_spec inv.stores (recordedBody_inRange inv.held hbody) hst
    exact ⟨hpre, fun t ht => ht, hcfg⟩
  | «unfold» i =>
    simp only [DefState.apply, Option.bind_eq_some_iff, Option.map_eq_some_iff] at h
    obtain ⟨t, ht, body, hbody, rfl⟩ := h
    exact ⟨fun _ => List.prefix_refl _, fun t ht => List.mem_append_right _ ht, rfl⟩
  | endSnippet => exact hop.elim
  | reset => exact hop.elim

theorem run_within {builtin s ops s'} (hb : BuiltinOk builtin) (inv : DefInv s)
    (hop : ∀ op ∈ ops, op.withinSnippet) (h : DefState.run builtin s ops = some s') :
    (∀ src, bodies s.stores src <+: bodies s'.stores src) ∧ (∀ t ∈ s.held, t ∈ s'.held) ∧
      s'.stores.config = s.stores.config := by
  induction ops generalizing s with
  | nil => cases h; exact ⟨fun _ => List.prefix_refl _, fun _ h => h, rfl⟩
  | cons op ops ih =>
    simp only [DefState.run, Option.bind_eq_some_iff] at h
    obtain ⟨s1, h1, h2⟩ := h
    obtain ⟨a1, a2, a3⟩ := apply_within hb inv (hop _ (List.mem_cons_self ..)) h1
    obtain ⟨b1, b2, b3⟩ := ih (apply_inv hb inv h1) (fun o ho => hop o (List.mem_cons_of_mem _ ho)) h2
    exact ⟨fun src => (a1 src).trans (b1 src), fun t ht => b2 t (a2 t ht), b3.trans a3⟩

/-- C13: a token which was looked up keeps its meaning through any operations of the same
snippet, be they definitions, redefinitions or removals of any names. -/
theorem C13_stable (cfg : ParserConfig) (hc : ConfigOk cfg.customCmds) (s s' : DefState)
    (hr : DefReachable cfg.builtin cfg.customCmds s) (ops : List DefOp)
    (hops : ∀ op ∈ ops, op.withinSnippet) (h : s.run cfg.builtin ops = some s')
    (t : Token) (ht : t ∈ s.held) (k : Nat) :
    meaning (bodies s'.stores) k (.token t) = meaning (bodies s.stores) k (.token t) := by
  have hb := builtin_ok cfg
  have inv := reachable_inv hb hc hr
  exact meaning_extend (run_within hb inv hops h).1 inv.stores.range k _ (inv.held t ht)

/-- C13: a looked-up token is never dangling: whenever it is a reference to a stored body, that
body is there, and the same holds for everything reachable from it (`meaning` to any depth has no
`dangling` node). -/
inductive HasDangling : Meaning → Prop
  | here (n c) : HasDangling (.dangling n c)
  | inside (n c ms m) : m ∈ ms → HasDangling m → HasDangling (.macro n c ms)

theorem not_dangling {st : CmdSource → List RecordedToken}
    (hR : ∀ src t, t ∈ st src → InRange st t) (k t) (ht : InRange st t) :
    ¬ HasDangling (meaning st k t) := by
  induction k generalizing t with
  | zero => intro h; cases t <;> (unfold meaning at h; cases h)
  | succ k ih =>
    cases t with
    | commandName n => intro h; unfold meaning at h; cases h
    | token t =>
      by_cases href : ∃ src n c s e, t = .customCmdRef src n c s e
      · obtain ⟨src, n, c, s, e, rfl⟩ := href
        rw [meaning_ref ht]
        intro h
        cases h with
        | inside _ _ _ m hm hd =>
          obtain ⟨x, hx, rfl⟩ := List.mem_map.1 hm
          exact ih x (hR src x (mem_slice hx)) hd
      · intro h
        unfold meaning at h
        split at h
        · cases h
        · cases h
        · rename_i heq; simp at heq; exact href ⟨_, _, _, _, _, heq⟩
        · cases h

/-- C13: no name and no looked-up token ever leads to a missing body, at any time of a session. -/
theorem C13_in_bounds (cfg : ParserConfig) (hc : ConfigOk cfg.customCmds) (s : DefState)
    (hr : DefReachable cfg.builtin cfg.customCmds s) (k : Nat) :
    (∀ t ∈ s.held, ¬ HasDangling (meaning (bodies s.stores) k (.token t))) ∧
    ∀ name m, nameMeaning cfg.builtin s.stores k name = some m → ¬ HasDangling m := by
  have hb := builtin_ok cfg
  have inv := reachable_inv hb hc hr
  refine ⟨fun t ht => not_dangling inv.stores.range k _ (inv.held t ht), ?_⟩
  intro name m hm
  simp only [nameMeaning, Option.map_eq_some_iff] at hm
  obtain ⟨t, ht, rfl⟩ := hm
  exact not_dangling inv.stores.range k _ (resolve_inRange hb inv.stores ht)

theorem apply_name {builtin s op s'} (hb : BuiltinOk builtin) (inv : DefInv s)
    (hop : op.withinSnippet) (name : Str) (hn : ¬ op.defines name)
    (h : DefState.apply builtin s op = some s') (k : Nat) :
    nameMeaning builtin s'.stores k name = nameMeaning builtin s.stores k name := by
  cases op with
  | lookup n =>
    simp only [DefState.apply, Option.map_eq_some_iff] at h
    obtain ⟨t, ht, rfl⟩ := h
    rfl
  | define n numArgs body cls replace isGlobal =>
    simp only [DefState.apply, Option.bind_eq_some_iff, Option.map_eq_some_iff] at h
    obtain ⟨b, hbody, st, hst, rfl⟩ := h
    obtain ⟨-, hcfg, hpre, -, -, -, -, hoth⟩ :=
      define_spec inv.stores (recordedBody_inRange inv.held hbody) hst
    have hne : name ≠ n := fun e => hn e.symm
    exact nameMeaning_extend hb inv.stores hpre
      (resolve_congr hcfg (hoth name hne).1 (hoth name hne).2) k
  | «unfold» i =>
    simp only [DefState.apply, Option.bind_eq_some_iff, Option.map_eq_some_iff] at h
    obtain ⟨t, ht, body, hbody, rfl⟩ := h
    rfl
  | endSnippet => exact hop.elim
  | reset => exact hop.elim

theorem run_name {builtin s ops s'} (hb : BuiltinOk builtin) (inv : DefInv s)
    (hop : ∀ op ∈ ops, op.withinSnippet) (name : Str) (hn : ∀ op ∈ ops, ¬ op.defines name)
    (h : DefState.run builtin s ops = some s') (k : Nat) :
    nameMeaning builtin s'.stores k name = nameMeaning builtin s.stores k name := by
  induction ops generalizing s with
  | nil => cases h; rfl
  | cons op ops ih =>
    simp only [DefState.run, Option.bind_eq_some_iff] at h
    obtain ⟨s1, h1, h2⟩ := h
    rw [ih (apply_inv hb inv h1) (fun o ho => hop o (List.mem_cons_of_mem _ ho))
      (fun o ho => hn o (List.mem_cons_of_mem _ ho)) h2]
    exact apply_name hb inv (hop _ (List.mem_cons_self ..)) name (hn _ (List.mem_cons_self ..)) h1 k

/-- C13: `\let\a=\b` gives `\a` the meaning `\b` has at that moment, and `\a` keeps it through any
later operations of the snippet which do not define `\a`, in particular redefinitions of `\b`. -/
theorem C13_let (cfg : ParserConfig) (hc : ConfigOk cfg.customCmds) (s s1 s2 s' : DefState)
    (hr : DefReachable cfg.builtin cfg.customCmds s)
    (a b : Str) (cls : Option Class) (isGlobal : Bool) (ops : List DefOp)
    (h1 : s.apply cfg.builtin (.lookup b) = some s1)
    (h2 : s1.apply cfg.builtin (.define a 0 [.lookedUp 0] cls true isGlobal) = some s2)
    (hops : ∀ op ∈ ops, op.withinSnippet ∧ ¬ op.defines a)
    (h : s2.run cfg.builtin ops = some s') (k : Nat) :
    nameMeaning cfg.builtin s'.stores (k+1) a =
      (nameMeaning cfg.builtin s.stores k b).map fun m => .macro 0 cls [m] := by
  have hbo := builtin_ok cfg
  have inv := reachable_inv hbo hc hr
  have inv1 := apply_inv hbo inv h1
  have inv2 := apply_inv hbo inv1 h2
  have hr1 : DefReachable cfg.builtin cfg.customCmds s1 := by
    obtain ⟨ops, ho⟩ := hr
    refine ⟨ops ++ [.lookup b], ?_⟩
    have : ∀ (s0 : DefState) ops, s0.run cfg.builtin ops = some s →
        s0.run cfg.builtin (ops ++ [.lookup b]) = some s1 := by
      intro s0 ops h
      induction ops generalizing s0 with
      | nil => cases h; simp [DefState.run, h1]
      | cons op ops ih =>
        simp only [DefState.run, Option.bind_eq_some_iff, List.cons_append] at *
        obtain ⟨x, hx, hx'⟩ := h
        exact ⟨x, hx, ih x hx'⟩
    exact this _ _ ho
  rw [run_name hbo inv2 (fun o ho => (hops o ho).1) a (fun o ho => (hops o ho).2) h]
  simp only [DefState.apply, Option.map_eq_some_iff] at h1
  obtain ⟨t, ht, rfl⟩ := h1
  rw [C09_defined cfg hc _ s2 hr1 a 0 _ cls true isGlobal [.token t] rfl h2 k]
  simp [nameMeaning, ht]

/-! ### C11 -/

/-- What a name means to later snippets. -/
def docMeaning (builtin : Str → Option Token) (s : CmdStores) (k : Nat) (name : Str) :
    Option Meaning := nameMeaning builtin { s with loc := {} } k name

theorem resolve_noLocal {builtin} (s : CmdStores) (name : Str) {t}
    (hb : BuiltinOk builtin)
    (h : ({ s with loc := {} } : CmdStores).resolveCommand builtin name = some t) :
    NotLocal (.token t) := by
  unfold CmdStores.resolveCommand CustomCmds.get at h
  simp only [StrMap.get, List.lookup_nil] at h
  cases hd : List.lookup name s.document.map with
  | some d => rw [hd] at h; simp at h; subst h; trivial
  | none =>
    rw [hd] at h
    cases hc : List.lookup name s.config.map with
    | some d => rw [hc] at h; simp at h; subst h; trivial
    | none => rw [hc] at h; simp at h; exact notLocal_of_notRef (hb _ _ h)

theorem apply_doc {builtin s op s'} (hb : BuiltinOk builtin) (inv : DefInv s)
    (hop : op.withinSnippet) (name : Str) (hn : ¬ op.definesGlobally name)
    (h : DefState.apply builtin s op = some s') (k : Nat) :
    docMeaning builtin s'.stores k name = docMeaning builtin s.stores k name := by
  cases op with
  | lookup n =>
    simp only [DefState.apply, Option.map_eq_some_iff] at h
    obtain ⟨t, ht, rfl⟩ := h
    rfl
  | define n numArgs body cls replace isGlobal =>
    simp only [DefState.apply, Option.bind_eq_some_iff, Option.map_eq_some_iff] at h
    obtain ⟨b, hbody, st, hst, rfl⟩ := h
    obtain ⟨inv', hcfg, hpre, hglob, hloc, -, -, hoth⟩ :=
      define_spec inv.stores (recordedBody_inRange inv.held hbody) hst
    cases isGlobal with
    | false =>
      have hd := hloc rfl
      unfold docMeaning
      have : ({ st with loc := {} } : CmdStores) = { s.stores with loc := {} } := by
        simp [hd, hcfg]
      simp only [this]
    | true =>
      have hne : name ≠ n := fun e => hn ⟨e.symm, rfl⟩
      have hres : ({ st with loc := {} } : CmdStores).resolveCommand builtin name =
          ({ s.stores with loc := {} } : CmdStores).resolveCommand builtin name :=
        resolve_congr hcfg (hoth name hne).1 rfl
      unfold docMeaning nameMeaning
      simp only [hres]
      cases hx : ({ s.stores with loc := {} } : CmdStores).resolveCommand builtin name with
      | none => rfl
      | some t =>
        simp only [Option.map_some, Option.some.injEq]
        have hnl := resolve_noLocal s.stores name hb hx
        have hir := resolve_inRange hb inv.stores.endSnippet hx
        refine (hglob rfl).2 k _ hnl ?_
        refine hir.mono ?_
        intro src; cases src <;> simp [bodies]
  | «unfold» i =>
    simp only [DefState.apply, Option.bind_eq_some_iff, Option.map_eq_some_iff] at h
    obtain ⟨t, ht, body, hbody, rfl⟩ := h
    rfl
  | endSnippet => exact hop.elim
  | reset => exact hop.elim

theorem run_doc {builtin s ops s'} (hb : BuiltinOk builtin) (inv : DefInv s)
    (hop : ∀ op ∈ ops, op.withinSnippet) (name : Str)
    (hn : ∀ op ∈ ops, ¬ op.definesGlobally name)
    (h : DefState.run builtin s ops = some s') (k : Nat) :
    docMeaning builtin s'.stores k name = docMeaning builtin s.stores k name := by
  induction ops generalizing s with
  | nil => cases h; rfl
  | cons op ops ih =>
    simp only [DefState.run, Option.bind_eq_some_iff] at h
    obtain ⟨s1, h1, h2⟩ := h
    rw [ih (apply_inv hb inv h1) (fun o ho => hop o (List.mem_cons_of_mem _ ho))
      (fun o ho => hn o (List.mem_cons_of_mem _ ho)) h2]
    exact apply_doc hb inv (hop _ (List.mem_cons_self ..)) name (hn _ (List.mem_cons_self ..)) h1 k

/-- C11: whatever a snippet does, a name it does not define globally means to the next snippet
what it meant before. -/
theorem C11_no_leak (cfg : ParserConfig) (hc : ConfigOk cfg.customCmds) (s s' s'' : DefState)
    (hr : DefReachable cfg.builtin cfg.customCmds s) (hstart : s.stores.loc = {})
    (ops : List DefOp) (hops : ∀ op ∈ ops, op.withinSnippet) (h : s.run cfg.builtin ops = some s')
    (hend : s'.apply cfg.builtin .endSnippet = some s'')
    (name : Str) (hn : ∀ op ∈ ops, ¬ op.definesGlobally name) (k : Nat) :
    nameMeaning cfg.builtin s''.stores k name = nameMeaning cfg.builtin s.stores k name := by
  have hb := builtin_ok cfg
  have inv := reachable_inv hb hc hr
  have := run_doc hb inv hops name hn h k
  cases hend
  unfold docMeaning at this
  simp only
  rw [this]
  have hs : ({ s.stores with loc := {} } : CmdStores) = s.stores := by
    rw [← hstart]
  rw [hs]

theorem run_append {builtin} {s : DefState} {a b : List DefOp} {s'} :
    s.run builtin (a ++ b) = some s' ↔
      ∃ x, s.run builtin a = some x ∧ x.run builtin b = some s' := by
  induction a generalizing s with
  | nil => simp [DefState.run]
  | cons op a ih =>
    simp only [List.cons_append, DefState.run, Option.bind_eq_some_iff, ih]
    constructor
    · rintro ⟨y, hy, x, hx, h⟩; exact ⟨x, ⟨y, hy, hx⟩, h⟩
    · rintro ⟨x, ⟨y, hy, hx⟩, h⟩; exact ⟨y, hy, x, hx, h⟩

theorem reachable_run {builtin config s s'} {ops : List DefOp}
    (hr : DefReachable builtin config s) (h : s.run builtin ops = some s') :
    DefReachable builtin config s' := by
  obtain ⟨o, ho⟩ := hr
  exact ⟨o ++ ops, run_append.2 ⟨s, ho, h⟩⟩

/-- C11: the last global definition of a name in a snippet is what the name means to the snippets
which follow: the body it was given, as understood when it was defined, whatever else the snippet
did before and after it. -/
theorem C11_persist (cfg : ParserConfig) (hc : ConfigOk cfg.customCmds)
    (s s1 s2 s' s'' : DefState) (hr : DefReachable cfg.builtin cfg.customCmds s)
    (before after : List DefOp) (h1 : s.run cfg.builtin before = some s1)
    (name : Str) (numArgs : Nat) (body : List BodyItem) (cls : Option Class) (replace : Bool)
    (b : List RecordedToken) (hb : recordedBody s1.held body = some b)
    (h2 : s1.apply cfg.builtin (.define name numArgs body cls replace true) = some s2)
    (hops : ∀ op ∈ after, op.withinSnippet ∧ ¬ op.definesGlobally name)
    (h3 : s2.run cfg.builtin after = some s')
    (hend : s'.apply cfg.builtin .endSnippet = some s'') (k : Nat) :
    nameMeaning cfg.builtin s''.stores (k+1) name =
      some (.macro numArgs cls (b.map (meaning (bodies s1.stores) k))) := by
  have hbo := builtin_ok cfg
  have hr1 := reachable_run hr h1
  have inv1 := reachable_inv hbo hc hr1
  have inv2 := apply_inv hbo inv1 h2
  rw [← C12_self_contained cfg hc s1 s2 { stores := { s2.stores with loc := {} }, held := [] } hr1
    name numArgs body cls replace b hb h2 rfl k]
  have := run_doc hbo inv2 (fun o ho => (hops o ho).1) name (fun o ho => (hops o ho).2) h3 (k+1)
  cases hend
  exact this

/-! ### A session which meets the hypotheses -/

namespace DefinitionsExample

def cfg : ParserConfig := {}

/-- `\newcommand\b{x}\let\c=\b\renewcommand\b{y}\global\let\a=\c\newcommand\a{z}` -/
def session : List DefOp :=
  [.define c!"b" 0 [.plain (.digit '1')] none false false, .lookup c!"b",
   .define c!"c" 0 [.lookedUp 0] none true false,
   .define c!"b" 0 [.plain (.digit '2')] none true false, .lookup c!"c",
   .define c!"a" 0 [.lookedUp 0] none true true]

example : ConfigOk cfg.customCmds := ⟨fun _ h => (nomatch h), fun _ _ h => (nomatch h)⟩

/-- The session runs, and afterwards `\a` has the meaning which `\b` had at first. -/
example : ((DefState.run cfg.builtin { stores := { config := cfg.customCmds }, held := [] }
      (session ++ [.endSnippet])).bind fun s =>
        nameMeaning cfg.builtin s.stores 10 c!"a") =
    some (.macro 0 none [.macro 0 none [.macro 0 none [.tok (.digit '1')]]]) := by
  rfl

example : ∀ op ∈ session, op.withinSnippet := by
  intro op h
  simp only [session, List.mem_cons, List.not_mem_nil, or_false] at h
  rcases h with rfl | rfl | rfl | rfl | rfl | rfl <;> trivial

example : ∀ op ∈ session, ¬ op.definesGlobally c!"b" := by
  intro op h
  simp only [session, List.mem_cons, List.not_mem_nil, or_false] at h
  rcases h with rfl | rfl | rfl | rfl | rfl | rfl <;> simp [DefOp.definesGlobally]

end DefinitionsExample
end Verif

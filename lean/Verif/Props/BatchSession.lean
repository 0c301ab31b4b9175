import Verif.Props.Sessions
import Verif.Props.Nesting
/-! Properties C19 and C36: what holds for the conversion of one source holds for every snippet of a batch. -/
namespace Verif
open Model Spec

namespace Spec

/-- Both are documents, or both are the same error. -/
def SameVerdict : Outcome Out → Outcome Out → Prop
  | .ok _, .ok _ => True
  | .err e, .err e' => e = e'
  | _, _ => False

/-- The calls which convert these snippets one by one with the global state -/
def oneByOne (snippets : List (Str × MathDisplay)) : List Call := snippets.map fun s => .withGlobalState s.1 s.2

end Spec

theorem length_session (fuel : Nat) (c : Converter) (a : List Call) : (session fuel c a).1.length = a.length := by
  induction a generalizing c with
  | nil => rfl
  | cons x a ih => simp only [session, List.length_cons, ih]

theorem reaches_append {c c1 c2 : Converter} {a b : List Call} (h : Reaches c a c1) (h' : Reaches c1 b c2) :
    Reaches c (a ++ b) c2 := by
  obtain ⟨n, h⟩ := h
  obtain ⟨m, h'⟩ := h'
  refine ⟨max n m, fun k hk => ?_⟩
  have h1 := h k (by omega)
  have h2 := h' k (by omega)
  unfold after
  rw [session_append]
  dsimp only
  rw [h1]
  exact h2

/-- C19. For every snippet of a batch, after any history: the verdict on it is the one of a conversion with the global
state, after the state was reset and the snippets before it were converted one by one. -/
theorem C19_as_session (config : MathCoreConfig) (c c1 c2 : Converter) (hc : Converter.new config = .ok c)
    (calls : List Call) (hr : Reaches c calls c1) (snippets : List (Str × MathDisplay)) (rs : List (Outcome Out))
    (h : Gives c1 (.all snippets) (.many rs) c2) (i : Nat) (src : Str) (display : MathDisplay) (r : Outcome Out)
    (hs : snippets[i]? = some (src, display)) (hi : rs[i]? = some r) :
    ∃ ci ci' r', Reaches c (calls ++ .reset :: oneByOne (snippets.take i)) ci ∧
      Gives ci (.withGlobalState src display) (.one r') ci' ∧ SameVerdict r r' := by
  have hok := reaches_ok hr (.new hc)
  obtain ⟨n0, h⟩ := h
  obtain ⟨n1, rs1, ci, h1, -, -, hci⟩ := session_spec hok (.reset :: oneByOne (snippets.take i))
  obtain ⟨n2, rr, ci', h2, h2', -⟩ := perform_spec hci (.withGlobalState src display) fun _ _ => sourceOk_nothing _
  have hreach : Reaches c1 (.reset :: oneByOne (snippets.take i)) ci := ⟨n1, fun n hn => by unfold after; rw [h1 n hn]⟩
  have hN0 := h (max n0 (max n1 n2)) (by omega)
  have hN1 := h1 (max n0 (max n1 n2)) (by omega)
  have hN2 := h2 (max n0 (max n1 n2)) (by omega)
  simp only [perform, Prod.mk.injEq, Reply.many.injEq] at hN0
  obtain ⟨parsed, labels, hp1, hp2⟩ := C19_like_global (max n0 (max n1 n2)) c1 snippets i src display hs
  rw [hN0.1, hi] at hp2
  have hsplit : snippets = snippets.take i ++ (src, display) :: snippets.drop (i + 1) := by
    obtain ⟨hlt, he⟩ := List.getElem?_eq_some_iff.1 hs
    rw [← he, ← List.drop_eq_getElem_cons hlt, List.take_append_drop]
  have hone : rr = .one (Converter.emitResult c1.emitterCfg labels src display parsed) := by
    simp only [session, perform] at hN1
    have hlen : (snippets.take i).length = i := by
      obtain ⟨hlt, -⟩ := List.getElem?_eq_some_iff.1 hs
      simp; omega
    have hcc : after (max n0 (max n1 n2)) c1.resetGlobalState (oneByOne (snippets.take i)) = ci := by
      have := congrArg Prod.snd hN1; exact this
    rw [hsplit, List.map_append] at hp1
    have hrw : (snippets.take i).map (fun s : Str × MathDisplay => Call.withGlobalState s.1 s.2) = oneByOne (snippets.take i) := rfl
    rw [hrw, session_append] at hp1
    dsimp only at hp1
    have hl2 : (session (max n0 (max n1 n2)) c1.resetGlobalState (oneByOne (snippets.take i))).1.length = i := by
      rw [length_session, oneByOne, List.length_map, hlen]
    rw [List.getElem?_append_right (by omega), hl2, Nat.sub_self, hcc, List.map_cons] at hp1
    unfold session at hp1
    rw [hN2] at hp1
    simpa using hp1
  subst hone
  refine ⟨ci, ci', _, reaches_append hr hreach, ⟨n2, h2⟩, ?_⟩
  simp only [Option.some.injEq] at hp2
  subst hp2
  cases parsed <;> first | trivial | rfl | exact h2'.1.elim

/-- C36, for batches: if a snippet of a batch is accepted, then what it comes to, with macros replaced by what they stand
for and definitions carried out, is properly nested, where the definitions known at its beginning are the configured ones
and those which the snippets before it have left. (Like in C36_nested_partial, commands for text have proper arguments.) -/
theorem C36_batch_partial (config : MathCoreConfig) (c c1 c2 : Converter) (hc : Converter.new config = .ok c)
    (calls : List Call) (hr : Reaches c calls c1) (snippets : List (Str × MathDisplay)) (rs : List (Outcome Out))
    (h : Gives c1 (.all snippets) (.many rs) c2) (i : Nat) (src : Str) (display : MathDisplay) (out : Out)
    (hs : snippets[i]? = some (src, display)) (hi : rs[i]? = some (.ok out)) :
    ∃ ci w st' u', Reaches c (calls ++ .reset :: oneByOne (snippets.take i)) ci ∧
      Unfolds ci.parserCfg.toParserConfig ⟨ci.parserCfg.customCmds, ci.state.customCmds, {}⟩
        (sourceStream ci.parserCfg.toParserConfig ⟨ci.parserCfg.customCmds, ci.state.customCmds, {}⟩ src) w st' u' ∧
      AtEnd u' ∧ (TextArgs w → Nested w) := by
  obtain ⟨ci, ci', r', h1, h2, h3⟩ := C19_as_session config c c1 c2 hc calls hr snippets rs h i src display _ hs hi
  cases r' with
  | ok out' =>
    obtain ⟨w, st', u', h4⟩ := C36_nested_partial config c ci ci' hc _ h1 _ src _ .withGlobalState out' h2
    exact ⟨ci, w, st', u', h1, h4⟩
  | err e => exact h3.elim
  | panic => exact h3.elim
  | fuel => exact h3.elim

/-- A batch with a macro which is defined in a snippet and opens an environment in the next one, and with a snippet which
is not properly nested -/
example : Replies plainConfig
    [.all [(c!"\\gdef\\m{\\begin{matrix}}", .inline), (c!"\\m a\\end{matrix}", .inline), (c!"\\m a}", .inline)]]
    [[.text c!"<math></math>",
      .text c!"<math><mtable displaystyle=\"false\" scriptlevel=\"0\"><mtr><mtd><mi>a</mi></mtd></mtr></mtable></math>",
      .error (.unmatchedClose .groupClose)]] :=
  replies_of 60 fun n => by kernel_rfl

end Verif

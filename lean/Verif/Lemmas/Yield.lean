import Verif.Spec.Numbering
import Verif.Lemmas.Letters
/-! What is known about the nodes which the parser makes. -/
namespace Verif
open Model Spec

theorem nodesInList_append (a b : List Node) : nodesInList (a ++ b) = nodesInList a ++ nodesInList b := by
  induction a with
  | nil => rfl
  | cons n ns ih => simp [nodesInList, ih]

theorem nodesInList_cons (n : Node) (ns : List Node) : nodesInList (n :: ns) = nodesIn n ++ nodesInList ns := by
  rw [nodesInList]

theorem nodesInList_nil : nodesInList [] = [] := by rw [nodesInList]

theorem nodesInPairs_eq (ps : List (Node × Node)) : nodesInPairs ps = nodesInList (ps.flatMap fun p => [p.1, p.2]) := by
  induction ps with
  | nil => simp [nodesInPairs, nodesInList]
  | cons p ps ih => simp [nodesInPairs, nodesInList, ih]

theorem nodesIn_eq (n : Node) : nodesIn n = n :: nodesInList (kids n) := by
  cases n <;> simp [nodesIn, kids, nodesInList, nodesInList_append, nodesInPairs_eq]

theorem nodesInList_perm {a b : List Node} (h : a.Perm b) : (nodesInList a).Perm (nodesInList b) := by
  induction h with
  | nil => exact .refl _
  | cons x _ ih => rw [nodesInList_cons, nodesInList_cons]; exact ih.append_left _
  | swap x y l =>
    simp only [nodesInList_cons, ← List.append_assoc]
    exact List.perm_append_comm.append_right _
  | trans _ _ ih1 ih2 => exact ih1.trans ih2

/-- No contradictory flags, apart from those for stretching -/
def WeakFlags (a : OpAttrs) : Prop :=
  ¬ (a.getLsbD 2 ∧ a.getLsbD 3) ∧ ¬ (a.getLsbD 4 ∧ a.getLsbD 5) ∧ ¬ (a.getLsbD 4 ∧ a.getLsbD 6) ∧
  ¬ (a.getLsbD 5 ∧ a.getLsbD 6)

instance (a : OpAttrs) : Decidable (WeakFlags a) := by unfold WeakFlags; infer_instance
instance (a : OpAttrs) : Decidable (FlagsOk a) := by unfold FlagsOk; infer_instance

/-- What the parser makes sure of, for one node -/
def LocalOk (cfg : ParserConfig) : Node → Prop
  | .number n => PlainText n
  | .identifierChar c _ => LetterOk c
  | .operator _ attrs _ _ _ => WeakFlags attrs
  | .pseudoOp attrs _ _ _ => FlagsOk attrs
  | .overAccent _ attrs _ => FlagsOk attrs
  | .underAccent _ attrs _ => FlagsOk attrs
  | .eqRef l => '&' ∉ l
  | .rowSeparator info _ => LabelOk info
  | .equationArray _ last _ => LabelOk last
  | .multLine _ last _ => LabelOk last
  | .unknownCommand _ => cfg.ignoreUnknownCommands = true
  | .aHref _ _ => False
  | _ => True

theorem numbered_append {c c1 c2 : Counters} {a b : List TaggedRow} (h1 : Numbered c a c1) (h2 : Numbered c1 b c2) :
    Numbered c (a ++ b) c2 := by
  induction a generalizing c with
  | nil => cases h1; exact h2
  | cons r rs ih => exact ⟨h1.1, ih h1.2⟩

/-- The nodes were made by the parser while the counters went from `c` to `c'`. -/
structure Yield (cfg : ParserConfig) (c : Counters) (ns : List Node) (c' : Counters) : Prop where
  ok : ∀ m ∈ nodesInList ns, LocalOk cfg m
  tags : ∃ rows, (tagsIn ns).Perm (rows.map TaggedRow.info) ∧ Numbered c rows c'

namespace Yield
variable {cfg : ParserConfig} {c c1 c2 : Counters} {a b : List Node} {n : Node}

theorem nil (cfg c) : Yield cfg c [] c :=
  ⟨by simp [nodesInList_nil], [], by simp [tagsIn, nodesInList_nil], rfl⟩

theorem append (h1 : Yield cfg c a c1) (h2 : Yield cfg c1 b c2) : Yield cfg c (a ++ b) c2 := by
  obtain ⟨r1, p1, n1⟩ := h1.tags
  obtain ⟨r2, p2, n2⟩ := h2.tags
  refine ⟨?_, r1 ++ r2, ?_, numbered_append n1 n2⟩
  · intro m hm
    rw [nodesInList_append] at hm
    rcases List.mem_append.1 hm with hm | hm
    · exact h1.ok m hm
    · exact h2.ok m hm
  · unfold tagsIn
    rw [nodesInList_append, List.filterMap_append, List.map_append]
    exact p1.append p2

theorem perm (h1 : Yield cfg c a c1) (h2 : a.Perm b) : Yield cfg c b c1 := by
  have hp := nodesInList_perm h2
  obtain ⟨r1, p1, n1⟩ := h1.tags
  exact ⟨fun m hm => h1.ok m (hp.mem_iff.2 hm), r1, (hp.filterMap _).symm.trans p1, n1⟩

/-- A node without a tag around other nodes -/
theorem wrap (n : Node) (h1 : Yield cfg c a c1) (hp : a.Perm (kids n)) (hl : LocalOk cfg n) (ht : tagOf n = none) :
    Yield cfg c [n] c1 := by
  obtain ⟨h2, r1, p1, n1⟩ := h1.perm hp
  have he : nodesInList [n] = n :: nodesInList (kids n) := by
    rw [nodesInList_cons, nodesInList_nil, nodesIn_eq]; simp
  refine ⟨?_, r1, ?_, n1⟩
  · rw [he]
    intro m hm
    rcases List.mem_cons.1 hm with rfl | hm
    · exact hl
    · exact h2 m hm
  · unfold tagsIn
    rw [he, List.filterMap_cons, ht]
    exact p1

/-- A node with a tag around other nodes -/
theorem wrapTag (n : Node) {info : RowLabelInfo} (auto : Bool) (h1 : Yield cfg c (kids n) c1) (hl : LocalOk cfg n)
    (ht : tagOf n = some info) (ha : auto = true → info.tag = autoTag (c1.count + 1)) :
    Yield cfg c [n] (c1.after ⟨info, auto⟩) := by
  obtain ⟨h2, r1, p1, n1⟩ := h1
  have he : nodesInList [n] = n :: nodesInList (kids n) := by
    rw [nodesInList_cons, nodesInList_nil, nodesIn_eq]; simp
  refine ⟨?_, r1 ++ [⟨info, auto⟩], ?_, numbered_append (b := [⟨info, auto⟩]) n1 ⟨ha, rfl⟩⟩
  · rw [he]
    intro m hm
    rcases List.mem_cons.1 hm with rfl | hm
    · exact hl
    · exact h2 m hm
  · unfold tagsIn
    rw [he, List.filterMap_cons, ht, List.map_append]
    have h3 : ([info] ++ tagsIn (kids n)).Perm (tagsIn (kids n) ++ [info]) := List.perm_append_comm
    exact h3.trans (p1.append_right _)

/-- A node which is a leaf -/
theorem leaf (n : Node) (hk : kids n = []) (hl : LocalOk cfg n) (ht : tagOf n = none) : Yield cfg c [n] c :=
  wrap n (nil cfg c) (by rw [hk]) hl ht

theorem local_ (h : Yield cfg c [n] c1) : LocalOk cfg n :=
  h.ok n (by rw [nodesInList_cons, nodesIn_eq]; simp)

theorem head (h : Yield cfg c (n :: a) c1) : LocalOk cfg n :=
  h.ok n (by rw [nodesInList_cons, nodesIn_eq]; simp)

/-- Take a node without a tag apart. -/
theorem unwrap (h : Yield cfg c (n :: a) c1) (ht : tagOf n = none) : Yield cfg c (kids n ++ a) c1 := by
  obtain ⟨h2, r1, p1, n1⟩ := h
  have he : nodesInList (n :: a) = n :: nodesInList (kids n ++ a) := by
    rw [nodesInList_cons, nodesIn_eq, nodesInList_append]; rfl
  refine ⟨fun m hm => h2 m (by rw [he]; exact List.mem_cons_of_mem _ hm), r1, ?_, n1⟩
  unfold tagsIn at p1
  rw [he, List.filterMap_cons, ht] at p1
  exact p1

end Yield
end Verif

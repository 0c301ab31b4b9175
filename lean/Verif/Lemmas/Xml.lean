import Verif.Spec.Xml
import Verif.Spec.Mathml
import Verif.Spec.Emittable
/-! How the reader reads pieces of markup. -/
namespace Verif
open Verif.Model Verif.Spec

theorem xrun_append (a b : Str) (s : XState) : xrun s (a ++ b) = (xrun s a).bind (xrun · b) := by
  induction a generalizing s with
  | nil => rfl
  | cons c cs ih =>
    simp only [List.cons_append, xrun]
    cases xstep s c with
    | none => rfl
    | some s' => simpa using ih s'

theorem xrun_app {a b : Str} {s t u : XState} (h : xrun s a = some t) (h' : xrun t b = some u) :
    xrun s (a ++ b) = some u := by rw [xrun_append, h]; exact h'

theorem xrun_cons {c : Char} {b : Str} {s t u : XState} (h : xstep s c = some t)
    (h' : xrun t b = some u) : xrun s (c :: b) = some u := by
  simp only [xrun, h, Option.bind_some]; exact h'

/-- Layout: whitespace only -/
def Blank (s : Str) : Prop := s.all isXmlSpace = true

theorem Blank.nil : Blank [] := rfl
theorem Blank.append {a b : Str} (ha : Blank a) (hb : Blank b) : Blank (a ++ b) := by
  simp only [Blank, List.all_append, Bool.and_eq_true] at *; exact ⟨ha, hb⟩

theorem blank_newLineAndIndent (n : Nat) (i : Indentation) : Blank (newLineAndIndent n i) := by
  unfold newLineAndIndent
  refine Blank.append ?_ ?_
  · split <;> rfl
  · simp only [Blank, List.all_eq_true, List.mem_flatten, List.mem_replicate]
    rintro c ⟨l, ⟨_, rfl⟩, hc⟩
    cases i with
    | tab => simp at hc; subst hc; rfl
    | spaces k => simp at hc; rw [hc.2]; rfl

theorem xmlSpace_ne {c : Char} (h : isXmlSpace c = true) : c ≠ '<' ∧ c ≠ '&' ∧ c ≠ '>' := by
  refine ⟨?_, ?_, ?_⟩ <;> (rintro rfl; revert h; decide)

theorem xrun_blank (s : Str) (h : Blank s) (t : Str) (top : Frame) (below : List Frame) :
    xrun ⟨.text t, top, below⟩ s = some ⟨.text (t ++ s), top, below⟩ := by
  induction s generalizing t with
  | nil => simp [xrun]
  | cons c cs ih =>
    simp only [Blank, List.all_cons, Bool.and_eq_true] at h
    have hc := xmlSpace_ne h.1
    refine xrun_cons (t := ⟨.text (t ++ [c]), top, below⟩) ?_ ?_
    · simp [xstep, hc.1, hc.2.1, hc.2.2]
    · rw [ih h.2]; simp

theorem xrun_plain (s : Str) (h : PlainText s) (t : Str) (top : Frame) (below : List Frame) :
    xrun ⟨.text t, top, below⟩ s = some ⟨.text (t ++ s), top, below⟩ := by
  induction s generalizing t with
  | nil => simp [xrun]
  | cons c cs ih =>
    simp only [PlainText, List.mem_cons, not_or] at h
    refine xrun_cons (t := ⟨.text (t ++ [c]), top, below⟩) ?_ ?_
    · simp [xstep, Ne.symm h.1.1, Ne.symm h.2.1.1, Ne.symm h.2.2.1]
    · rw [ih ⟨h.1.2, h.2.1.2, h.2.2.2⟩]; simp

theorem xrun_escape (s : Str) (t : Str) (top : Frame) (below : List Frame) :
    xrun ⟨.text t, top, below⟩ (escapeHtml s) = some ⟨.text (t ++ s), top, below⟩ := by
  induction s generalizing t with
  | nil => simp [xrun, escapeHtml]
  | cons c cs ih =>
    unfold escapeHtml
    refine xrun_app (t := ⟨.text (t ++ [c]), top, below⟩) ?_ (by rw [ih]; simp)
    by_cases h1 : c = '<'
    · subst h1; rfl
    by_cases h2 : c = '>'
    · subst h2; rfl
    by_cases h3 : c = '&'
    · subst h3; rfl
    by_cases h4 : c = '"'
    · subst h4; rfl
    by_cases h5 : c = '\''
    · subst h5; rfl
    simp [h1, h2, h3, h4, h5, xrun, xstep]

theorem xrun_opText (op : MathMLOperator) (t : Str) (top : Frame) (below : List Frame) :
    xrun ⟨.text t, top, below⟩ op.text = some ⟨.text (t ++ op.sc.text), top, below⟩ := by
  unfold MathMLOperator.text
  induction op.sc.text generalizing t with
  | nil => simp [xrun]
  | cons c cs ih =>
    rw [List.flatMap_cons]
    refine xrun_app (t := ⟨.text (t ++ [c]), top, below⟩) ?_ (by rw [ih]; simp)
    by_cases h1 : c = '<'
    · subst h1; rfl
    by_cases h2 : c = '>'
    · subst h2; rfl
    by_cases h3 : c = '&'
    · subst h3; rfl
    simp [h1, h2, h3, xrun, xstep]

/-! ### Opening tags -/

/-- A name as the reader wants it -/
def isName (n : Str) : Bool :=
  match n with
  | [] => false
  | c :: cs => isNameStart c && cs.all isNameChar

theorem xrun_nameChars (s : Str) (h : s.all isNameChar = true) (n : Str) (top : Frame)
    (below : List Frame) :
    xrun ⟨.name n, top, below⟩ s = some ⟨.name (n ++ s), top, below⟩ := by
  induction s generalizing n with
  | nil => simp [xrun]
  | cons c cs ih =>
    simp only [List.all_cons, Bool.and_eq_true] at h
    refine xrun_cons (t := ⟨.name (n ++ [c]), top, below⟩) (by simp [xstep, h.1]) ?_
    rw [ih h.2]; simp

theorem nameStart_ne_slash {c : Char} (h : isNameStart c = true) : c ≠ '/' := by
  rintro rfl; revert h; decide

/-- Outside of token elements whitespace is dropped -/
theorem flush_blank {ws : Str} (h : Blank ws) {top : Frame} {below : List Frame}
    (ht : inToken top below = false) : flush top below ws = some top := by
  unfold flush
  split
  · rfl
  · rw [if_neg (by simp [ht]), if_pos (show ws.all isXmlSpace = true from h)]

theorem xrun_lt_name {n : Str} (hn : isName n = true) (top : Frame) (below : List Frame) :
    xrun ⟨.lt, top, below⟩ n = some ⟨.name n, top, below⟩ := by
  cases n with
  | nil => simp [isName] at hn
  | cons c cs =>
    simp only [isName, Bool.and_eq_true] at hn
    refine xrun_cons (t := ⟨.name [c], top, below⟩)
      (by simp [xstep, hn.1, nameStart_ne_slash hn.1]) ?_
    rw [xrun_nameChars cs hn.2]; rfl

theorem xrun_lt {ws : Str} {top top' : Frame} {below : List Frame}
    (h : flush top below ws = some top') (n : Str) (hn : isName n = true) :
    xrun ⟨.text ws, top, below⟩ ('<' :: n) = some ⟨.name n, top', below⟩ :=
  xrun_cons (t := ⟨.lt, top', below⟩) (by simp [xstep, h]) (xrun_lt_name hn top' below)

/-- Reading a tag: name and complete attributes -/
inductive InTag : Mode → Str → Attrs → Prop
  | name (n : Str) : InTag (.name n) n []
  | after (n : Str) (as : Attrs) : InTag (.afterValue n as) n as

/-- Text which adds attributes to a tag -/
def AttrReads (s : Str) (as' : Attrs) : Prop :=
  ∀ m n as top below, InTag m n as → ((as ++ as').map Prod.fst).Nodup →
    ∃ m', InTag m' n (as ++ as') ∧ xrun ⟨m, top, below⟩ s = some ⟨m', top, below⟩

theorem AttrReads.nil : AttrReads [] [] := fun m n as top below h _ => ⟨m, by simpa using h, rfl⟩

theorem AttrReads.append {s t : Str} {as bs : Attrs} (ha : AttrReads s as) (hb : AttrReads t bs) :
    AttrReads (s ++ t) (as ++ bs) := by
  intro m n cs top below h hd
  rw [← List.append_assoc] at hd
  obtain ⟨m', h', hr⟩ := ha m n cs top below h
    (by rw [List.map_append] at hd; exact (List.nodup_append.1 hd).1)
  obtain ⟨m'', h'', hr'⟩ := hb m' n (cs ++ as) top below h' hd
  exact ⟨m'', by rw [← List.append_assoc]; exact h'', xrun_app hr hr'⟩

theorem AttrReads.congr {s t : Str} {as bs : Attrs} (h : AttrReads s as) (hs : s = t) (ha : as = bs) :
    AttrReads t bs := hs ▸ ha ▸ h

theorem xrun_attrChars (s : Str) (h : s.all isNameChar = true) (n : Str) (as : Attrs) (a : Str)
    (top : Frame) (below : List Frame) :
    xrun ⟨.attr n as a, top, below⟩ s = some ⟨.attr n as (a ++ s), top, below⟩ := by
  induction s generalizing a with
  | nil => simp [xrun]
  | cons c cs ih =>
    simp only [List.all_cons, Bool.and_eq_true] at h
    refine xrun_cons (t := ⟨.attr n as (a ++ [c]), top, below⟩) (by simp [xstep, h.1]) ?_
    rw [ih h.2]; simp

theorem nameStart_not_space {c : Char} (h : isNameStart c = true) : isXmlSpace c = false := by
  cases hs : isXmlSpace c with
  | false => rfl
  | true =>
    exfalso
    simp only [isXmlSpace, Bool.or_eq_true, beq_iff_eq] at hs
    rcases hs with ((rfl | rfl) | rfl) | rfl <;> (revert h; decide)

/-- Text read as the value of an attribute -/
def ValueReads (s v : Str) : Prop :=
  ∀ n as a v' top below,
    xrun ⟨.value n as a v', top, below⟩ s = some ⟨.value n as a (v' ++ v), top, below⟩

theorem ValueReads.plain {s : Str} (h : PlainValue s) : ValueReads s s := by
  intro n as a v' top below
  induction s generalizing v' with
  | nil => simp [xrun]
  | cons c cs ih =>
    simp only [PlainValue, List.mem_cons, not_or] at h
    refine xrun_cons (t := ⟨.value n as a (v' ++ [c]), top, below⟩) ?_ ?_
    · simp [xstep, Ne.symm h.1.1, Ne.symm h.2.1.1, Ne.symm h.2.2.1]
    · rw [ih ⟨h.1.2, h.2.1.2, h.2.2.2⟩]; simp

theorem ValueReads.append {s t v w : Str} (h : ValueReads s v) (h' : ValueReads t w) :
    ValueReads (s ++ t) (v ++ w) := by
  intro n as a v' top below
  refine xrun_app (h ..) ?_
  rw [h']; simp

theorem ValueReads.escape (s : Str) : ValueReads (escapeHtml s) s := by
  intro n as a v' top below
  induction s generalizing v' with
  | nil => simp [xrun, escapeHtml]
  | cons c cs ih =>
    unfold escapeHtml
    refine xrun_app (t := ⟨.value n as a (v' ++ [c]), top, below⟩) ?_ (by rw [ih]; simp)
    by_cases h1 : c = '<'
    · subst h1; rfl
    by_cases h2 : c = '>'
    · subst h2; rfl
    by_cases h3 : c = '&'
    · subst h3; rfl
    by_cases h4 : c = '"'
    · subst h4; rfl
    by_cases h5 : c = '\''
    · subst h5; rfl
    simp [h1, h2, h3, h4, h5, xrun, xstep]

theorem nodup_single {as : Attrs} {a v : Str} (h : ((as ++ [(a, v)]).map Prod.fst).Nodup) :
    a ∉ as.map Prod.fst := by
  rw [List.map_append, List.nodup_append] at h
  intro hm
  exact h.2.2 a hm a (by simp) rfl

/-- ` name="value"` -/
theorem AttrReads.one {a s v : Str} (ha : isName a = true) (hv : ValueReads s v) :
    AttrReads (' ' :: (a ++ (c!"=\"" ++ (s ++ c!"\"")))) [(a, v)] := by
  intro m n as top below h hd
  refine ⟨.afterValue n (as ++ [(a, v)]), .after _ _, ?_⟩
  cases a with
  | nil => simp [isName] at ha
  | cons c cs =>
    simp only [isName, Bool.and_eq_true] at ha
    refine xrun_cons (t := ⟨.space n as, top, below⟩) ?_ ?_
    · cases h <;> rfl
    refine xrun_cons (t := ⟨.attr n as [c], top, below⟩) ?_ ?_
    · simp [xstep, nameStart_not_space ha.1, ha.1]
    refine xrun_app (t := ⟨.attr n as (c :: cs), top, below⟩) ?_ ?_
    · rw [xrun_attrChars cs ha.2]; rfl
    refine xrun_app (t := ⟨.value n as (c :: cs) [], top, below⟩) rfl ?_
    refine xrun_app (hv ..) ?_
    have := nodup_single hd
    simp [xrun, xstep, this]

theorem AttrReads.str {a : Str} {v : Str} (ha : isName a = true) (hv : PlainValue v) :
    AttrReads (' ' :: (a ++ (c!"=\"" ++ (v ++ c!"\"")))) [(a, v)] := .one ha (.plain hv)

/-- The end of an opening tag -/
theorem xrun_gt {m : Mode} {n : Str} {as : Attrs} (h : InTag m n as) (top : Frame)
    (below : List Frame) :
    xrun ⟨m, top, below⟩ c!">" = some ⟨.text [], ⟨n, as, []⟩, top :: below⟩ := by
  cases h <;> rfl

/-- `/>` -/
theorem xrun_slash {m : Mode} {n : Str} {as : Attrs} (h : InTag m n as) (top : Frame)
    (below : List Frame) :
    xrun ⟨m, top, below⟩ c!"/>" = some ⟨.text [], top.add [.elem n as []], below⟩ := by
  cases h <;> rfl

/-- `</name>` -/
theorem xrun_close (n : Str) (hn : n.all isNameChar = true) {t : Str} {top top' : Frame} {parent : Frame}
    {below : List Frame} (hf : flush top (parent :: below) t = some top') (ht : top'.name = n) :
    xrun ⟨.text t, top, parent :: below⟩ ('<' :: '/' :: (n ++ c!">")) =
      some ⟨.text [], parent.add [.elem n top'.attrs top'.children], below⟩ := by
  refine xrun_cons (t := ⟨.lt, top', parent :: below⟩) (by simp [xstep, hf]) ?_
  refine xrun_cons (t := ⟨.close [], top', parent :: below⟩) (by simp [xstep]) ?_
  have : ∀ (s k : Str), s.all isNameChar = true →
      xrun ⟨.close k, top', parent :: below⟩ s = some ⟨.close (k ++ s), top', parent :: below⟩ := by
    intro s
    induction s with
    | nil => intro k _; simp [xrun]
    | cons c cs ih =>
      intro k h
      simp only [List.all_cons, Bool.and_eq_true] at h
      refine xrun_cons (t := ⟨.close (k ++ [c]), top', parent :: below⟩) (by simp [xstep, h.1]) ?_
      rw [ih _ h.2]; simp
  refine xrun_app (this n [] hn) ?_
  have h2 : isNameChar '>' = false := by decide
  simp [xrun, xstep, h2, ht]

/-! ### Content -/

/-- Text read as elements, between elements -/
def Reads (s : Str) (xs : List Xml) : Prop :=
  ∀ ws top below, Blank ws → inToken top below = false →
    ∃ ws', Blank ws' ∧ xrun ⟨.text ws, top, below⟩ s = some ⟨.text ws', top.add xs, below⟩

theorem Frame.add_nil (f : Frame) : f.add [] = f := by simp [Frame.add]
theorem Frame.add_add (f : Frame) (a b : List Xml) : (f.add a).add b = f.add (a ++ b) := by
  simp [Frame.add]
theorem inToken_add (top : Frame) (below : List Frame) (xs : List Xml) :
    inToken (top.add xs) below = inToken top below := rfl

theorem Reads.blank {s : Str} (h : Blank s) : Reads s [] := by
  intro ws top below hw _
  exact ⟨ws ++ s, hw.append h, by rw [xrun_blank s h, Frame.add_nil]⟩

theorem Reads.append {s t : Str} {xs ys : List Xml} (h : Reads s xs) (h' : Reads t ys) :
    Reads (s ++ t) (xs ++ ys) := by
  intro ws top below hw ht
  obtain ⟨w1, hw1, hr⟩ := h ws top below hw ht
  obtain ⟨w2, hw2, hr'⟩ := h' w1 (top.add xs) below hw1 (by rw [inToken_add, ht])
  exact ⟨w2, hw2, by rw [← Frame.add_add]; exact xrun_app hr hr'⟩

theorem Reads.congr {s t : Str} {xs ys : List Xml} (h : Reads s xs) (hs : s = t) (hx : xs = ys) :
    Reads t ys := hs ▸ hx ▸ h

theorem Reads.nil : Reads [] [] := .blank .nil

/-- Text read as the content of a token element, up to the closing tag: `kids` is what has been
read when the next tag comes. -/
def TokenReads (s : Str) (kids : List Xml) : Prop :=
  ∀ top below, inToken top below = true →
    ∃ t top', xrun ⟨.text [], top, below⟩ s = some ⟨.text t, top', below⟩ ∧
      flush top' below t = some (top.add kids)

theorem flush_txt {top : Frame} {below : List Frame} (h : inToken top below = true) (s : Str) :
    flush top below s = some (top.add (txt s)) := by
  unfold flush txt
  split
  · rw [Frame.add_nil]
  · simp only [if_pos h]

theorem TokenReads.plain {s : Str} (h : PlainText s) : TokenReads s (txt s) := fun top below ht =>
  ⟨s, top, by simpa using xrun_plain s h [] top below, flush_txt ht s⟩

theorem TokenReads.escape (s : Str) : TokenReads (escapeHtml s) (txt s) := fun top below ht =>
  ⟨s, top, by simpa using xrun_escape s [] top below, flush_txt ht s⟩

theorem TokenReads.op (op : MathMLOperator) : TokenReads op.text (txt op.sc.text) :=
  fun top below ht => ⟨op.sc.text, top, by simpa using xrun_opText op [] top below, flush_txt ht _⟩

/-- Not a token element -/
def notToken (n : Str) : Bool := !tokenElements.contains n

theorem inToken_push {n : Str} (hn : notToken n = true) (as : Attrs) (ks : List Xml) (top : Frame)
    (below : List Frame) : inToken ⟨n, as, ks⟩ (top :: below) = inToken top below := by
  unfold inToken
  simp only [notToken, Bool.not_eq_true'] at hn
  rw [List.any_cons, hn, Bool.false_or]

theorem inToken_push_token {n : Str} (hn : tokenElements.contains n = true) (as : Attrs) (ks : List Xml)
    (top : Frame) (below : List Frame) : inToken ⟨n, as, ks⟩ (top :: below) = true := by
  unfold inToken
  rw [List.any_cons, hn]; rfl

theorem name_all {n : Str} (h : isName n = true) : n.all isNameChar = true := by
  cases n with
  | nil => rfl
  | cons c cs =>
    simp only [isName, Bool.and_eq_true] at h
    rw [List.all_cons, h.2, Bool.and_true]
    simp [isNameChar, h.1]

/-- An element, with content that is not text -/
theorem Reads.elem {n at_ inner : Str} {as : Attrs} {kids : List Xml} (hn : isName n = true)
    (ht : notToken n = true) (ha : AttrReads at_ as) (hd : (as.map Prod.fst).Nodup)
    (hi : Reads inner kids) :
    Reads ('<' :: (n ++ (at_ ++ (c!">" ++ (inner ++ ('<' :: '/' :: (n ++ c!">")))))))
      [.elem n as kids] := by
  intro ws top below hw hto
  refine ⟨[], .nil, ?_⟩
  rw [← List.cons_append]
  refine xrun_app (xrun_lt (flush_blank hw hto) n hn) ?_
  obtain ⟨m, hm, hr⟩ := ha (.name n) n [] top below (.name n) (by simpa using hd)
  refine xrun_app hr ?_
  refine xrun_app (xrun_gt hm top below) ?_
  have hto' : inToken ⟨n, as, []⟩ (top :: below) = false := by rw [inToken_push ht, hto]
  obtain ⟨w, hw', hr'⟩ := hi [] ⟨n, [] ++ as, []⟩ (top :: below) .nil hto'
  refine xrun_app hr' ?_
  exact xrun_close n (name_all hn) (flush_blank hw' (by rw [inToken_add]; exact hto')) rfl

/-- `<name …/>` -/
theorem Reads.void {n at_ : Str} {as : Attrs} (hn : isName n = true) (ha : AttrReads at_ as)
    (hd : (as.map Prod.fst).Nodup) :
    Reads ('<' :: (n ++ (at_ ++ c!"/>"))) [.elem n as []] := by
  intro ws top below hw hto
  refine ⟨[], .nil, ?_⟩
  rw [← List.cons_append]
  refine xrun_app (xrun_lt (flush_blank hw hto) n hn) ?_
  obtain ⟨m, hm, hr⟩ := ha (.name n) n [] top below (.name n) (by simpa using hd)
  refine xrun_app hr ?_
  exact xrun_slash hm top below

/-- A token element -/
theorem Reads.token {n at_ inner : Str} {as : Attrs} {kids : List Xml} (hn : isName n = true)
    (ht : tokenElements.contains n = true) (ha : AttrReads at_ as) (hd : (as.map Prod.fst).Nodup)
    (hi : TokenReads inner kids) :
    Reads ('<' :: (n ++ (at_ ++ (c!">" ++ (inner ++ ('<' :: '/' :: (n ++ c!">")))))))
      [.elem n as kids] := by
  intro ws top below hw hto
  refine ⟨[], .nil, ?_⟩
  rw [← List.cons_append]
  refine xrun_app (xrun_lt (flush_blank hw hto) n hn) ?_
  obtain ⟨m, hm, hr⟩ := ha (.name n) n [] top below (.name n) (by simpa using hd)
  refine xrun_app hr ?_
  refine xrun_app (xrun_gt hm top below) ?_
  obtain ⟨t, top', hr', hf⟩ := hi ⟨n, [] ++ as, []⟩ (top :: below) (inToken_push_token ht _ _ _ _)
  refine xrun_app hr' ?_
  exact xrun_close n (name_all hn) hf rfl

/-- An element in a token element -/
theorem TokenReads.elem {n at_ inner : Str} {as : Attrs} {kids : List Xml} (hn : isName n = true)
    (ha : AttrReads at_ as) (hd : (as.map Prod.fst).Nodup) (hi : TokenReads inner kids) :
    TokenReads ('<' :: (n ++ (at_ ++ (c!">" ++ (inner ++ ('<' :: '/' :: (n ++ c!">")))))))
      [.elem n as kids] := by
  intro top below hto
  refine ⟨[], top.add [.elem n as kids], ?_, rfl⟩
  rw [← List.cons_append]
  refine xrun_app (xrun_lt (top' := top) rfl n hn) ?_
  obtain ⟨m, hm, hr⟩ := ha (.name n) n [] top below (.name n) (by simpa using hd)
  refine xrun_app hr ?_
  refine xrun_app (xrun_gt hm top below) ?_
  have h' : inToken ⟨n, [] ++ as, []⟩ (top :: below) = true := by
    unfold inToken at hto ⊢
    rw [List.any_cons, hto, Bool.or_true]
  obtain ⟨t, top', hr', hf⟩ := hi ⟨n, [] ++ as, []⟩ (top :: below) h'
  refine xrun_app hr' ?_
  exact xrun_close n (name_all hn) hf rfl

end Verif

import Verif.Lemmas.Xml
import Verif.Lemmas.Percent
/-! The attributes the emitter writes. -/
namespace Verif
open Verif.Model Verif.Spec

/-- Lists of characters which are plain, checked by evaluation -/
def plainValueB (s : Str) : Bool := s.all fun c => c != '"' && c != '<' && c != '&'
def plainTextB (s : Str) : Bool := s.all fun c => c != '<' && c != '>' && c != '&'

theorem _root_.Verif.Spec.PlainValue.of {s : Str} (h : plainValueB s = true) : PlainValue s := by
  simp only [plainValueB, List.all_eq_true, Bool.and_eq_true, bne_iff_ne] at h
  exact ⟨fun hm => (h _ hm).1.1 rfl, fun hm => (h _ hm).1.2 rfl, fun hm => (h _ hm).2 rfl⟩

theorem _root_.Verif.Spec.PlainText.of {s : Str} (h : plainTextB s = true) : PlainText s := by
  simp only [plainTextB, List.all_eq_true, Bool.and_eq_true, bne_iff_ne] at h
  exact ⟨fun hm => (h _ hm).1.1 rfl, fun hm => (h _ hm).1.2 rfl, fun hm => (h _ hm).2 rfl⟩

theorem _root_.Verif.Spec.PlainValue.append {s t : Str} (h : PlainValue s) (h' : PlainValue t) : PlainValue (s ++ t) := by
  simp only [PlainValue, List.mem_append, not_or] at *
  exact ⟨⟨h.1, h'.1⟩, ⟨h.2.1, h'.2.1⟩, ⟨h.2.2, h'.2.2⟩⟩

theorem _root_.Verif.Spec.PlainText.append {s t : Str} (h : PlainText s) (h' : PlainText t) : PlainText (s ++ t) := by
  simp only [PlainText, List.mem_append, not_or] at *
  exact ⟨⟨h.1, h'.1⟩, ⟨h.2.1, h'.2.1⟩, ⟨h.2.2, h'.2.2⟩⟩

theorem _root_.Verif.Spec.PlainValue.sub {s t : Str} (h : PlainValue s) (hs : ∀ c ∈ t, c ∈ s) : PlainValue t :=
  ⟨fun hm => h.1 (hs _ hm), fun hm => h.2.1 (hs _ hm), fun hm => h.2.2 (hs _ hm)⟩

theorem _root_.Verif.Spec.PlainText.cons {s : Str} {c : Char} (h : PlainText s) (hc : plainTextB [c] = true) :
    PlainText (c :: s) := PlainText.append (s := [c]) (.of hc) h

/-! ### Names of attributes are different -/

theorem attrIf_sub (b : Bool) (n v : Str) : ((attrIf b n v).map Prod.fst).Sublist [n] := by
  cases b <;> simp [attrIf]

theorem optAttr_sub (n : Str) (v : Option Str) : ((optAttr n v).map Prod.fst).Sublist [n] := by
  cases v <;> simp [optAttr]

theorem styleAttr_sub (s : Str) : ((styleAttr s).map Prod.fst).Sublist [c!"style"] := by
  unfold styleAttr; split <;> simp

theorem sub_append {a b : Attrs} {l m : List Str} (h : (a.map Prod.fst).Sublist l)
    (h' : (b.map Prod.fst).Sublist m) : ((a ++ b).map Prod.fst).Sublist (l ++ m) := by
  rw [List.map_append]; exact h.append h'

theorem attrIf_two {b c : Bool} (h : ¬ (b = true ∧ c = true)) (n v w : Str) :
    ((attrIf b n v ++ attrIf c n w).map Prod.fst).Sublist [n] := by
  cases b <;> cases c <;> simp [attrIf] at *

theorem attrIf_three {b c d : Bool} (h : ¬ (b = true ∧ c = true)) (h' : ¬ (b = true ∧ d = true))
    (h'' : ¬ (c = true ∧ d = true)) (n v w x : Str) :
    ((attrIf b n v ++ attrIf c n w ++ attrIf d n x).map Prod.fst).Sublist [n] := by
  cases b <;> cases c <;> cases d <;> simp [attrIf] at *

theorem flagAttrs_sub {a : OpAttrs} (h : FlagsOk a) :
    ((flagAttrs a).map Prod.fst).Sublist
      [c!"stretchy", c!"movablelimits", c!"form", c!"symmetric", c!"largeop"] := by
  obtain ⟨h1, h2, h3, h4, h5⟩ := h
  have := sub_append (sub_append (sub_append (sub_append
    (attrIf_two h1 c!"stretchy" c!"false" c!"true")
    (attrIf_two h2 c!"movablelimits" c!"false" c!"true"))
    (attrIf_three h3 h4 h5 c!"form" c!"prefix" c!"infix" c!"postfix"))
    (attrIf_sub (a.getLsbD 7) c!"symmetric" c!"true")) (attrIf_sub (a.getLsbD 8) c!"largeop" c!"true")
  simpa only [flagAttrs, List.append_assoc, List.cons_append, List.nil_append] using this

theorem spacingAttrs_sub (l r : Option MathSpacing) :
    ((spacingAttrs l r).map Prod.fst).Sublist [c!"lspace", c!"rspace"] :=
  sub_append (optAttr_sub _ _) (optAttr_sub _ _)

theorem sizeAttrs_sub (s : Option Size) :
    ((sizeAttrs s).map Prod.fst).Sublist [c!"minsize", c!"maxsize"] := by
  cases s <;> simp [sizeAttrs]

theorem styleAttrs_sub (s : Option Style) :
    ((styleAttrs s).map Prod.fst).Sublist [c!"displaystyle", c!"scriptlevel"] := by
  cases s with
  | none => simp [styleAttrs]
  | some s => cases s <;> simp [styleAttrs]

theorem fracAttrs_sub (s : Option FracAttr) :
    ((fracAttrs s).map Prod.fst).Sublist [c!"displaystyle", c!"scriptlevel", c!"style"] := by
  cases s with
  | none => simp [fracAttrs]
  | some s => cases s <;> simp [fracAttrs]

theorem nodup_sub {a : Attrs} {l : List Str} (h : (a.map Prod.fst).Sublist l) (hl : l.Nodup) :
    (a.map Prod.fst).Nodup := h.nodup hl

/-! ### The text of attributes -/

theorem AttrReads.optIf {s : Str} {as : Attrs} (h : AttrReads s as) (b : Bool) :
    AttrReads (if b then s else []) (if b then as else []) := by
  cases b
  · exact .nil
  · exact h

theorem contains_bit (a : OpAttrs) (i : Nat) (f : OpAttrs) (hi : i < 16) (hf : f = BitVec.twoPow 16 i) :
    a.contains f = a.getLsbD i := by
  subst hf
  unfold OpAttrs.contains
  rw [BitVec.and_twoPow]
  cases a.getLsbD i with
  | true => simp
  | false =>
    simp only [Bool.false_eq_true, if_false, beq_eq_false_iff_ne, ne_eq]
    intro h
    have := congrArg (fun x => BitVec.getLsbD x i) h
    simp [hi] at this

theorem ncontains_bit (a : Notation) (i : Nat) (f : Notation) (hi : i < 8)
    (hf : f = BitVec.twoPow 8 i) : a.contains f = a.getLsbD i := by
  subst hf
  unfold Notation.contains
  rw [BitVec.and_twoPow]
  cases a.getLsbD i with
  | true => simp
  | false =>
    simp only [Bool.false_eq_true, if_false, beq_eq_false_iff_ne, ne_eq]
    intro h
    have := congrArg (fun x => BitVec.getLsbD x i) h
    simp [hi] at this

theorem attrIf_reads (b : Bool) (n v : Str) (hn : isName n = true) (hv : plainValueB v = true) :
    AttrReads (if b then ' ' :: (n ++ (c!"=\"" ++ (v ++ c!"\""))) else []) (attrIf b n v) :=
  (AttrReads.str hn (.of hv)).optIf b

theorem flagAttrs_reads (a : OpAttrs) : AttrReads a.text (flagAttrs a) := by
  unfold OpAttrs.text flagAttrs
  rw [contains_bit a 0 _ (by decide) (by decide), contains_bit a 1 _ (by decide) (by decide),
    contains_bit a 2 _ (by decide) (by decide), contains_bit a 3 _ (by decide) (by decide),
    contains_bit a 4 _ (by decide) (by decide), contains_bit a 5 _ (by decide) (by decide),
    contains_bit a 6 _ (by decide) (by decide), contains_bit a 7 _ (by decide) (by decide),
    contains_bit a 8 _ (by decide) (by decide)]
  exact (((((((((attrIf_reads (a.getLsbD 0) c!"stretchy" c!"false" rfl rfl).append
    (attrIf_reads (a.getLsbD 1) c!"stretchy" c!"true" rfl rfl)).append
    (attrIf_reads (a.getLsbD 2) c!"movablelimits" c!"false" rfl rfl)).append
    (attrIf_reads (a.getLsbD 3) c!"movablelimits" c!"true" rfl rfl)).append
    (attrIf_reads (a.getLsbD 4) c!"form" c!"prefix" rfl rfl)).append
    (attrIf_reads (a.getLsbD 5) c!"form" c!"infix" rfl rfl)).append
    (attrIf_reads (a.getLsbD 6) c!"form" c!"postfix" rfl rfl)).append
    (attrIf_reads (a.getLsbD 7) c!"symmetric" c!"true" rfl rfl)).append
    (attrIf_reads (a.getLsbD 8) c!"largeop" c!"true" rfl rfl))

theorem spacing_str (m : MathSpacing) : m.str = spacing m := by cases m <;> rfl

theorem plain_spacing (m : MathSpacing) : PlainValue (spacing m) := by
  cases m <;> exact .of rfl

theorem plain_size (s : Size) : PlainValue s.str := by cases s <;> exact .of rfl

theorem operatorAttributes_reads (a : OpAttrs) (l r : Option MathSpacing) :
    ∃ t, operatorAttributes a l r = c!"<mo" ++ t ∧ AttrReads t (flagAttrs a ++ spacingAttrs l r) := by
  refine ⟨_, by unfold operatorAttributes; rw [List.append_assoc], ?_⟩
  refine (flagAttrs_reads a).append ?_
  cases l with
  | none =>
    cases r with
    | none => exact .nil
    | some r =>
      simp only [spacing_str]
      exact (AttrReads.str (a := c!"rspace") rfl (plain_spacing r)).congr
        (by simp) (by simp [spacingAttrs, optAttr])
  | some l =>
    cases r with
    | none =>
      simp only [spacing_str]
      exact (AttrReads.str (a := c!"lspace") rfl (plain_spacing l)).congr
        (by simp) (by simp [spacingAttrs, optAttr])
    | some r =>
      simp only [spacing_str]
      exact ((AttrReads.str (a := c!"lspace") rfl (plain_spacing l)).append
        (AttrReads.str (a := c!"rspace") rfl (plain_spacing r))).congr
        (by simp) (by simp [spacingAttrs, optAttr])

theorem styleAttrs_reads (s : Option Style) :
    AttrReads (match s with
      | some style => style.attrs
      | none => []) (styleAttrs s) := by
  cases s with
  | none => exact .nil
  | some s =>
    have key : ∀ d l : Str, plainValueB d = true → plainValueB l = true →
        AttrReads (c!" displaystyle=\"" ++ d ++ c!"\" scriptlevel=\"" ++ l ++ c!"\"")
          [(c!"displaystyle", d), (c!"scriptlevel", l)] := fun d l hd hl =>
      ((AttrReads.str (a := c!"displaystyle") rfl (.of hd)).append
        (AttrReads.str (a := c!"scriptlevel") rfl (.of hl))).congr (by simp) rfl
    cases s
    · exact key c!"true" c!"0" rfl rfl
    · exact key c!"false" c!"0" rfl rfl
    · exact key c!"false" c!"1" rfl rfl
    · exact key c!"false" c!"2" rfl rfl

theorem fracAttrs_reads (s : Option FracAttr) :
    AttrReads (match s with
      | some style => style.attrs
      | none => []) (fracAttrs s) := by
  cases s with
  | none => exact .nil
  | some s =>
    cases s
    · exact AttrReads.str (a := c!"displaystyle") (v := c!"true") rfl (.of rfl)
    · exact AttrReads.str (a := c!"displaystyle") (v := c!"false") rfl (.of rfl)
    · exact ((AttrReads.str (a := c!"displaystyle") (v := c!"true") rfl (.of rfl)).append
        (AttrReads.str (a := c!"scriptlevel") (v := c!"0") rfl (.of rfl))).append
        (AttrReads.str (a := c!"style") (v := c!"padding-top: 0.1667em") rfl (.of rfl))

theorem plain_length {fmt : Rat → Str} (h : ∀ r, PlainValue (fmt r)) (l : Length) :
    PlainValue (l.str fmt) := by
  unfold Length.str
  split
  · rename_i v _
    refine .append ?_ ?_
    · refine (h v).sub fun c hc => ?_
      unfold stripDotZero at hc
      split at hc
      · exact List.mem_of_mem_take hc
      · exact hc
    · split
      · cases l.unit <;> exact .of rfl
      · exact .of rfl
  · refine .append (.of rfl) ?_
    cases l.unit <;> exact .of rfl

theorem hexDigit_plain (d : Nat) (h : d < 16) : plainValueB [hexDigit d] = true := by
  have : ∀ d : Fin 16, plainValueB [hexDigit d.val] = true := by decide
  exact this ⟨d, h⟩

theorem plain_u8Hex (b : UInt8) : PlainValue (u8Hex b) := by
  have h1 : b.toNat / 16 < 16 := by have := b.toNat_lt; omega
  have h2 : b.toNat % 16 < 16 := by omega
  exact .append (s := [_]) (.of (hexDigit_plain _ h1)) (.of (hexDigit_plain _ h2))

theorem lineCss_plain (side : Str) (hs : plainValueB side = true) (l : Option LineType) :
    PlainValue (lineCss side l) := by
  cases l with
  | none => exact .of rfl
  | some l =>
    simp only [lineCss]
    exact ((((PlainValue.of rfl).append (.of hs)).append (.of rfl)).append
      (by cases l <;> exact .of rfl)).append (.of rfl)

theorem styleAttr_reads {css : Str} (h : PlainValue css) :
    AttrReads (if css = [] then [] else c!" style=\"" ++ (css ++ c!"\"")) (styleAttr css) := by
  unfold styleAttr
  split
  · exact .nil
  · exact AttrReads.str (a := c!"style") rfl h

end Verif

import Verif.Lemmas.Escape
import Verif.Model.ErrorHtml
import Verif.Spec.Text
/-! Properties C01, C02, C03 and the presentation part of C07. -/
namespace Verif
open Model Spec

/-! ### C01 -/

/-- C01: whatever text is embedded with content escaping, and whatever is in the output buffer
already, the buffer is only appended to, the appended text is inert, and decoding it gives back
the source. -/
theorem C01_content_escape (out src : Str) :
    ∃ t, escapeHtmlContent out src = out ++ t ∧ InertText t ∧ unescape t = src := by
  refine ⟨src.flatMap esc1, escapeHtmlContent_eq out src, ⟨?_, ?_, amps_flatMap good_esc1 src⟩,
    unescape_flatMap good_esc1 src⟩
  · exact not_mem_flatMap (esc1_no (Or.inl rfl)) src
  · exact not_mem_flatMap (esc1_no (Or.inr rfl)) src

/-- A concrete case: markup and an existing entity in the source. -/
example : escapeHtmlContent c!"<x>" c!"a<b &lt; \\text{é}" =
    c!"<x>a&lt;b &amp;lt; \\text{é}" := by rw [escapeHtmlContent_eq]; decide

/-- C01, for text nodes of the tree (`EscapeHtml`). -/
theorem C01_text_escape (src : Str) :
    InertText (escapeHtml src) ∧ '"' ∉ escapeHtml src ∧ unescape (escapeHtml src) = src := by
  rw [escapeHtml_eq]
  refine ⟨⟨?_, ?_, amps_flatMap good_escH src⟩, ?_, unescape_flatMap good_escH src⟩
  · exact not_mem_flatMap (escH_no (Or.inl rfl)) src
  · exact not_mem_flatMap (escH_no (Or.inr (Or.inl rfl))) src
  · exact not_mem_flatMap (escH_no (Or.inr (Or.inr rfl))) src

example : escapeHtml c!"'a\"&" = c!"&#39;a&quot;&amp;" := by decide

/-! ### C02 -/

/-- C02: a reader of the error HTML gets back the tag, the class, the exact message and the exact
source, whatever they contain, as long as the class name has no double quote. -/
theorem C02_error_html (start : Nat) (msg latex : Str) (display : MathDisplay)
    (cls : Option Str) (hcls : ∀ c, cls = some c → '"' ∉ c) :
    readErrorHtml (toHtml start msg latex display cls) =
      some (if display = .block then c!"p" else c!"span", cls.getD c!"math-core-error",
        toMessage start msg latex, latex) := by
  have hc : '"' ∉ cls.getD c!"math-core-error" := by
    cases cls with
    | none => decide
    | some c => exact hcls c rfl
  simp only [toHtml]
  generalize cls.getD c!"math-core-error" = k at hc ⊢
  have hA : '"' ∉ (toMessage start msg latex).flatMap escA := not_mem_flatMap escA_no_quote _
  have hB : '<' ∉ latex.flatMap esc1 := not_mem_flatMap (esc1_no (Or.inl rfl)) _
  have uA := unescape_flatMap good_escA (toMessage start msg latex)
  have uB := unescape_flatMap good_esc1 latex
  have key : ∀ tag : Str, ' ' ∉ tag →
      readErrorHtml (escapeHtmlContent (escapeAttr (c!"<" ++ tag ++ c!" class=\"" ++ k ++
        c!"\" title=\"") (toMessage start msg latex) ++ c!"\"><code>") latex ++ c!"</code></" ++ tag
          ++ c!">") = some (tag, k, toMessage start msg latex, latex) := by
    intro tag htag
    rw [escapeHtmlContent_eq, escapeAttr_eq]
    generalize (toMessage start msg latex).flatMap escA = A at hA uA
    generalize latex.flatMap esc1 = B at hB uB
    have e : c!"<" ++ tag ++ c!" class=\"" ++ k ++ c!"\" title=\"" ++ A ++ c!"\"><code>" ++ B
        ++ c!"</code></" ++ tag ++ c!">" =
        c!"<" ++ (tag ++ ' ' :: (c!"class=\"" ++ (k ++ '"' :: (c!" title=\"" ++ (A ++ '"' ::
          (c!"><code>" ++ (B ++ '<' :: (c!"/code></" ++ (tag ++ (c!">" ++ [])))))))))) := by
      simp
    rw [e]
    simp only [readErrorHtml, stripPrefix_append, Option.bind_eq_bind, Option.bind_some,
      untilChar_append htag, untilChar_append hc, untilChar_append hA, untilChar_append hB,
      uA, uB, if_true]
  cases display with
  | inline => exact key c!"span" (by decide)
  | block => exact key c!"p" (by decide)

example : readErrorHtml (toHtml 2 c!"Unknown \"x\" & <y>" c!"a<b\\x" .block none) =
    some (c!"p", c!"math-core-error", c!"2: Unknown \"x\" & <y>", c!"a<b\\x") :=
  C02_error_html 2 _ _ .block none (by simp)

/-- C02, limits: the class name is written verbatim, so a class containing a double quote does
break out of its attribute. This is why C02 asks for quote-free class names. -/
theorem C02_class_not_escaped :
    readErrorHtml (toHtml 0 c!"m" c!"x" .inline (some c!"a\" onclick=\"b")) = none := by
  rw [toHtml, escapeHtmlContent_eq, escapeAttr_eq]
  decide

/-! ### C07, presentation of positions -/

/-- C07: if the error starts after the prefix `pre` of the source, the printed column is the
number of characters of `pre` in decimal, followed by a colon, a space and the message. -/
theorem C07_column (pre post msg : Str) :
    ∃ ds, toMessage (blen pre) msg (pre ++ post) = ds ++ c!": " ++ msg ∧
      (∀ c ∈ ds, c.isDigit) ∧ digitsValue ds = pre.length := by
  have hf : floorPrefix (pre ++ post) (blen pre) = pre := by
    induction pre with
    | nil =>
      cases post with
      | nil => rfl
      | cons c cs => have := utf8Size_pos c; simp [floorPrefix]; omega
    | cons c cs ih =>
      simp only [List.cons_append, floorPrefix, blen_cons]
      rw [if_pos (by omega), show c.utf8Size + blen cs - c.utf8Size = blen cs by omega, ih]
  refine ⟨decimal pre.length, by rw [toMessage, hf], ?_, ?_⟩
  · intro c hc; exact Nat.isDigit_of_mem_toDigits (by decide) (by decide) hc
  · exact Nat.ofDigitChars_ten_toDigits

example : toMessage 3 c!"bad" c!"aéx" = c!"2: bad" := by decide

/-- C07: an error position inside a character or beyond the end never makes printing fail: the
column is that of the character the position falls into, or the end of the source. -/
theorem C07_column_total (start : Nat) (msg input : Str) :
    ∃ pre post, input = pre ++ post ∧ blen pre ≤ start ∧
      (∀ c cs, post = c :: cs → start < blen pre + c.utf8Size) ∧
      toMessage start msg input = decimal pre.length ++ c!": " ++ msg := by
  suffices h : ∃ post, input = floorPrefix input start ++ post ∧ blen (floorPrefix input start) ≤ start ∧
      (∀ c cs, post = c :: cs → start < blen (floorPrefix input start) + c.utf8Size) by
    obtain ⟨post, h⟩ := h
    exact ⟨_, post, h.1, h.2.1, h.2.2, rfl⟩
  induction input generalizing start with
  | nil => exact ⟨[], rfl, by simp [floorPrefix], by simp⟩
  | cons c cs ih =>
    simp only [floorPrefix]
    split
    · obtain ⟨post, h1, h2, h3⟩ := ih (start - c.utf8Size)
      refine ⟨post, by simp [← h1], by simp; omega, ?_⟩
      intro d ds hd
      have := h3 d ds hd
      simp; omega
    · refine ⟨c :: cs, rfl, by simp, ?_⟩
      intro d ds hd
      simp only [List.cons.injEq] at hd
      rw [← hd.1]; simp; omega

example : toMessage 2 c!"bad" c!"aéx" = c!"1: bad" := by decide

/-- C07: the offset handed to JavaScript for a position behind `pre` is the number of UTF-16 code
units of `pre`. -/
theorem C07_utf16 (pre post : Str) :
    byteOffsetToUtf16 (pre ++ post) (blen pre) =
      (pre.map (fun c => if c.toNat ≤ 0xFFFF then 1 else 2)).sum := by
  simp only [byteOffsetToUtf16, splitAtByte_append]
  congr 1
  apply List.map_congr_left
  intro c _
  simp only [lenUtf16]
  split <;> split <;> omega

example : byteOffsetToUtf16 c!"𝔸é" 4 = 2 := by decide

end Verif

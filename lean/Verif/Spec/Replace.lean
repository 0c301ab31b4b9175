import Verif.Model.Replace
/-! What a document with delimited formulas is, for the properties C30, C31 and C33. Everything is
stated on characters. -/
namespace Verif.Spec
open Verif.Model

/-- The text before the first occurrence of the delimiter `d`, reading from left to right. If
`ignore` is set, an occurrence directly after a backslash does not count and is skipped as a
whole. `skip` is the number of characters still to be skipped, `prev` the character before. -/
def beforeDelim (ignore : Bool) (d : Str) : Nat → Option Char → Str → Option Str
  | _, _, [] => if d.isEmpty then some [] else none
  | skip, prev, c :: s =>
    if skip = 0 ∧ d.isPrefixOf (c :: s) then
      if ignore ∧ prev = some '\\' ∧ d ≠ [] then
        (beforeDelim ignore d (d.length - 1) (some c) s).map (c :: ·)
      else some []
    else (beforeDelim ignore d (skip - 1) (some c) s).map (c :: ·)

/-- An opening or closing delimiter. -/
def delim (r : Replacer) : Bool → MathDisplay → Str
  | true, .inline => r.inlineOpen
  | true, .block => r.blockOpen
  | false, .inline => r.inlineClose
  | false, .block => r.blockClose

/-- The next opening (or closing) delimiter of a text: which one it is, and the text before it. If
both start at the same place, it is the block delimiter. -/
def nextDelim (r : Replacer) (opening : Bool) (s : Str) : Option (MathDisplay × Str) :=
  match beforeDelim r.ignoreEscaped (delim r opening .inline) 0 none s,
      beforeDelim r.ignoreEscaped (delim r opening .block) 0 none s with
  | some a, some b => if b.length ≤ a.length then some (.block, b) else some (.inline, a)
  | some a, none => some (.inline, a)
  | none, some b => some (.block, b)
  | none, none => none

/-- What happens to the rest `s` of a document, which starts at byte `pos`, in the state `st`: the
new state and the outcome. -/
inductive Processed {S E : Type} (r : Replacer) (f : S → Str → MathDisplay → S × Except E Str) :
    Nat → S → Str → S → ReplaceResult E → Prop
  /-- No more formulas. -/
  | done {pos st s} : nextDelim r true s = none → Processed r f pos st s st (.ok s)
  /-- An opening delimiter without a closing one. -/
  | unclosed {pos st pre t rest} :
      nextDelim r true (pre ++ delim r true t ++ rest) = some (t, pre) →
      nextDelim r false rest = none →
      Processed r f pos st (pre ++ delim r true t ++ rest) st (.err (.unclosedDelimiter (pos + blen pre)))
  /-- The next closing delimiter is of the other kind. -/
  | mismatched {pos st pre t content t' rest} :
      nextDelim r true (pre ++ delim r true t ++ (content ++ delim r false t' ++ rest)) = some (t, pre) →
      nextDelim r false (content ++ delim r false t' ++ rest) = some (t', content) →
      t ≠ t' → r.inlineClose ≠ r.blockClose →
      Processed r f pos st (pre ++ delim r true t ++ (content ++ delim r false t' ++ rest)) st
        (.err (.mismatchedDelimiters (pos + blen pre) (pos + blen pre + blen (delim r true t) + blen content)))
  /-- There is an opening delimiter inside the formula. -/
  | nested {pos st pre t content t' rest t'' inner} :
      nextDelim r true (pre ++ delim r true t ++ (content ++ delim r false t' ++ rest)) = some (t, pre) →
      nextDelim r false (content ++ delim r false t' ++ rest) = some (t', content) →
      t = t' ∨ r.inlineClose = r.blockClose →
      nextDelim r true content = some (t'', inner) →
      Processed r f pos st (pre ++ delim r true t ++ (content ++ delim r false t' ++ rest)) st
        (.err (.nestedDelimiters (pos + blen pre + blen (delim r true t) + blen inner)))
  /-- A formula which cannot be converted; the conversion is done a second time. -/
  | failed {pos st pre t content t' rest st1 e1 st2 e2} :
      nextDelim r true (pre ++ delim r true t ++ (content ++ delim r false t' ++ rest)) = some (t, pre) →
      nextDelim r false (content ++ delim r false t' ++ rest) = some (t', content) →
      t = t' ∨ r.inlineClose = r.blockClose →
      nextDelim r true content = none →
      f st (replaceHtmlEntities content) t = (st1, .error e1) →
      f st1 (replaceHtmlEntities content) t = (st2, .error e2) →
      Processed r f pos st (pre ++ delim r true t ++ (content ++ delim r false t' ++ rest)) st2
        (.err (.latexError (pos + blen pre + blen (delim r true t)) e2 (replaceHtmlEntities content)))
  /-- A formula which cannot be converted the first time but can be the second time. -/
  | crash {pos st pre t content t' rest st1 e1 st2 text} :
      nextDelim r true (pre ++ delim r true t ++ (content ++ delim r false t' ++ rest)) = some (t, pre) →
      nextDelim r false (content ++ delim r false t' ++ rest) = some (t', content) →
      t = t' ∨ r.inlineClose = r.blockClose →
      nextDelim r true content = none →
      f st (replaceHtmlEntities content) t = (st1, .error e1) →
      f st1 (replaceHtmlEntities content) t = (st2, .ok text) →
      Processed r f pos st (pre ++ delim r true t ++ (content ++ delim r false t' ++ rest)) st2 .panic
  /-- A formula which is converted, and what comes after it. -/
  | formula {pos st pre t content t' rest st1 text st2 res} :
      nextDelim r true (pre ++ delim r true t ++ (content ++ delim r false t' ++ rest)) = some (t, pre) →
      nextDelim r false (content ++ delim r false t' ++ rest) = some (t', content) →
      t = t' ∨ r.inlineClose = r.blockClose →
      nextDelim r true content = none →
      f st (replaceHtmlEntities content) t = (st1, .ok text) →
      Processed r f (pos + blen pre + blen (delim r true t) + blen content + blen (delim r false t'))
        st1 rest st2 res →
      Processed r f pos st (pre ++ delim r true t ++ (content ++ delim r false t' ++ rest)) st2
        (match res with
          | .ok out => .ok (pre ++ text ++ out)
          | res => res)

/-- A converted formula: the text before it, its delimiters, its content, and what it became. -/
structure Formula where
  before : Str
  openTyp : MathDisplay
  content : Str
  closeTyp : MathDisplay
  html : Str

/-- The text before a formula and the formula, in the document. -/
def Formula.source (r : Replacer) (x : Formula) : Str :=
  x.before ++ delim r true x.openTyp ++ x.content ++ delim r false x.closeTyp

/-- The same in the converted document. -/
def Formula.output (x : Formula) : Str := x.before ++ x.html

/-- The formulas are converted one after the other, each starting in the state which the one before
it left. A formula has no opening delimiter in it, and is closed by a delimiter of its kind. -/
inductive Converted {S E : Type} (r : Replacer) (f : S → Str → MathDisplay → S × Except E Str) :
    S → List Formula → S → Prop
  | nil {st} : Converted r f st [] st
  | cons {st st1 st2 x xs} :
      f st (replaceHtmlEntities x.content) x.openTyp = (st1, .ok x.html) →
      delim r false x.openTyp = delim r false x.closeTyp →
      nextDelim r true x.content = none →
      Converted r f st1 xs st2 → Converted r f st (x :: xs) st2

/-- Line and column of the end of a text, both counted from 1. -/
def lineCol (before : Str) : Nat × Nat :=
  (before.count '\n' + 1, (before.reverse.takeWhile (· ≠ '\n')).length + 1)

end Verif.Spec

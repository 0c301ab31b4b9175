import Verif.Basic
/-!
What an HTML reader does with text: an independent entity decoder and the notion of
"contains no markup".  Nothing here refers to the model.
-/
namespace Verif.Spec

/-- The entities an HTML reader has to know to read the converter's output. -/
def entities : List (Str × Char) :=
  [(c!"&amp;", '&'), (c!"&lt;", '<'), (c!"&gt;", '>'), (c!"&quot;", '"'), (c!"&#39;", '\'')]

/-- Remove a prefix. -/
def stripPrefix : Str → Str → Option Str
  | [], s => some s
  | _ :: _, [] => none
  | p :: ps, c :: cs => if p = c then stripPrefix ps cs else none

/-- First entity of a table which the text starts with. -/
def matchEntity : List (Str × Char) → Str → Option (Char × Str)
  | [], _ => none
  | (name, ch) :: es, s =>
    match stripPrefix name s with
    | some rest => some (ch, rest)
    | none => matchEntity es s

/-- Decode the entities of a text from left to right; each decoded character is final.
`fuel` bounds the number of steps; the length of the text is always enough. -/
def unescapeAux : Nat → Str → Str
  | 0, s => s
  | _ + 1, [] => []
  | n + 1, c :: cs =>
    match matchEntity entities (c :: cs) with
    | some (ch, rest) => ch :: unescapeAux n rest
    | none => c :: unescapeAux n cs

/-- Decode the entities of a text. -/
def unescape (s : Str) : Str := unescapeAux s.length s

/-- Every `&` in the text starts one of the entities. -/
def AmpsAreEntities (s : Str) : Prop :=
  ∀ pre post, s = pre ++ '&' :: post → ∃ e ∈ entities, e.1 <+: ('&' :: post)

/-- Text which an HTML reader takes as character data and nothing else. -/
def InertText (s : Str) : Prop := '<' ∉ s ∧ '>' ∉ s ∧ AmpsAreEntities s

/-- Split at the first occurrence of a character, dropping it. -/
def untilChar (q : Char) (s : Str) : Option (Str × Str) :=
  match s.dropWhile (· ≠ q) with
  | [] => none
  | _ :: rest => some (s.takeWhile (· ≠ q), rest)

/-- What a reader gets out of the HTML of an error: tag name, class, message, source.
It reads attribute values up to the next double quote and the content up to the next `<`. -/
def readErrorHtml (s : Str) : Option (Str × Str × Str × Str) := do
  let s ← stripPrefix c!"<" s
  let (tag, s) ← untilChar ' ' s
  let s ← stripPrefix c!"class=\"" s
  let (cls, s) ← untilChar '"' s
  let s ← stripPrefix c!" title=\"" s
  let (msg, s) ← untilChar '"' s
  let s ← stripPrefix c!"><code>" s
  let (src, s) ← untilChar '<' s
  let s ← stripPrefix c!"/code></" s
  let s ← stripPrefix tag s
  let s ← stripPrefix c!">" s
  if s = [] then some (tag, cls, unescape msg, unescape src) else none

end Verif.Spec

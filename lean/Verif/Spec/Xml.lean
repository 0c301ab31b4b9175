import Verif.Basic
/-!
An independent reader for the markup the converter writes: a strict XML reader (quoted attribute
values, no attribute twice, every element closed in the right order, no raw `<`, `>` or `&` in
text, no raw `<` or `&` in attribute values, only the predefined entities), which treats whitespace
as MathML does: whitespace between elements means nothing, text is only allowed in token elements.
Nothing here refers to the model.
-/
namespace Verif.Spec

/-- A document tree -/
inductive Xml
  | text (s : Str)
  | elem (name : Str) (attrs : List (Str × Str)) (children : List Xml)
  deriving Repr, Inhabited

/-- An element which has been opened but not closed yet -/
structure Frame where
  name : Str
  attrs : List (Str × Str)
  children : List Xml
  deriving Repr

/-- What the reader has seen last -/
inductive Mode
  /-- character data -/
  | text (t : Str)
  /-- `&name` in character data -/
  | entity (t name : Str)
  /-- `<` -/
  | lt
  /-- `<name` -/
  | name (n : Str)
  /-- `<name …` with complete attributes, the last of which has just been closed -/
  | afterValue (n : Str) (as : List (Str × Str))
  /-- the same, and then whitespace -/
  | space (n : Str) (as : List (Str × Str))
  /-- `<name … attr` -/
  | attr (n : Str) (as : List (Str × Str)) (a : Str)
  /-- `<name … attr=` -/
  | eq (n : Str) (as : List (Str × Str)) (a : Str)
  /-- `<name … attr="value` -/
  | value (n : Str) (as : List (Str × Str)) (a v : Str)
  /-- `<name … attr="value&entity` -/
  | valueEntity (n : Str) (as : List (Str × Str)) (a v e : Str)
  /-- `<name … /` -/
  | slash (n : Str) (as : List (Str × Str))
  /-- `</name` -/
  | close (n : Str)
  deriving Repr

/-- State of the reader: the innermost open element (at the start: the document), and the ones
around it. -/
structure XState where
  mode : Mode
  top : Frame
  below : List Frame
  deriving Repr

def isXmlSpace (c : Char) : Bool := c == ' ' || c == '\n' || c == '\t' || c == '\r'
def isNameStart (c : Char) : Bool := ('a' ≤ c && c ≤ 'z') || ('A' ≤ c && c ≤ 'Z')
def isNameChar (c : Char) : Bool := isNameStart c || ('0' ≤ c && c ≤ '9') || c == '-'

/-- The predefined entities of XML, and the apostrophe by number -/
def entityChar (e : Str) : Option Char :=
  if e = c!"amp" then some '&'
  else if e = c!"lt" then some '<'
  else if e = c!"gt" then some '>'
  else if e = c!"quot" then some '"'
  else if e = c!"apos" then some '\''
  else if e = c!"#39" then some '\''
  else none

/-- MathML elements whose content is text (https://www.w3.org/TR/mathml-core/, token elements), and
`annotation` -/
def tokenElements : List Str := [c!"mi", c!"mn", c!"mo", c!"mtext", c!"ms", c!"annotation"]

/-- Is this text in a token element, maybe in some element nested in it? -/
def inToken (top : Frame) (below : List Frame) : Bool :=
  (top :: below).any (fun f => tokenElements.contains f.name)

def Frame.add (f : Frame) (xs : List Xml) : Frame := { f with children := f.children ++ xs }

/-- The end of a run of text -/
def flush (top : Frame) (below : List Frame) (t : Str) : Option Frame :=
  if t = [] then some top
  else if inToken top below then some (top.add [.text t])
  else if t.all isXmlSpace then some top
  else none

/-- `>` at the end of an opening tag -/
def openTag (s : XState) (n : Str) (as : List (Str × Str)) : XState :=
  ⟨.text [], ⟨n, as, []⟩, s.top :: s.below⟩

/-- One character -/
def xstep (s : XState) (c : Char) : Option XState :=
  match s.mode with
  | .text t =>
    if c = '<' then (flush s.top s.below t).map fun top => ⟨.lt, top, s.below⟩
    else if c = '&' then some { s with mode := .entity t [] }
    else if c = '>' then none
    else some { s with mode := .text (t ++ [c]) }
  | .entity t e =>
    if c = ';' then (entityChar e).map fun ch => { s with mode := .text (t ++ [ch]) }
    else some { s with mode := .entity t (e ++ [c]) }
  | .lt =>
    if c = '/' then some { s with mode := .close [] }
    else if isNameStart c then some { s with mode := .name [c] }
    else none
  | .name n =>
    if isNameChar c then some { s with mode := .name (n ++ [c]) }
    else if isXmlSpace c then some { s with mode := .space n [] }
    else if c = '>' then some (openTag s n [])
    else if c = '/' then some { s with mode := .slash n [] }
    else none
  | .afterValue n as =>
    if isXmlSpace c then some { s with mode := .space n as }
    else if c = '>' then some (openTag s n as)
    else if c = '/' then some { s with mode := .slash n as }
    else none
  | .space n as =>
    if isXmlSpace c then some s
    else if isNameStart c then some { s with mode := .attr n as [c] }
    else if c = '>' then some (openTag s n as)
    else if c = '/' then some { s with mode := .slash n as }
    else none
  | .attr n as a =>
    if isNameChar c then some { s with mode := .attr n as (a ++ [c]) }
    else if c = '=' then some { s with mode := .eq n as a }
    else none
  | .eq n as a => if c = '"' then some { s with mode := .value n as a [] } else none
  | .value n as a v =>
    if c = '"' then
      if a ∈ as.map Prod.fst then none else some { s with mode := .afterValue n (as ++ [(a, v)]) }
    else if c = '<' then none
    else if c = '&' then some { s with mode := .valueEntity n as a v [] }
    else some { s with mode := .value n as a (v ++ [c]) }
  | .valueEntity n as a v e =>
    if c = ';' then (entityChar e).map fun ch => { s with mode := .value n as a (v ++ [ch]) }
    else some { s with mode := .valueEntity n as a v (e ++ [c]) }
  | .slash n as =>
    if c = '>' then some ⟨.text [], s.top.add [.elem n as []], s.below⟩ else none
  | .close n =>
    if isNameChar c then some { s with mode := .close (n ++ [c]) }
    else if c = '>' then
      match s.below with
      | parent :: rest =>
        if s.top.name = n then
          some ⟨.text [], parent.add [.elem n s.top.attrs s.top.children], rest⟩
        else none
      | [] => none
    else none

/-- A text, character by character -/
def xrun (s : XState) : Str → Option XState
  | [] => some s
  | c :: cs => (xstep s c).bind fun s => xrun s cs

/-- The elements of a complete document; `none` if it is not well-formed. -/
def readXml (s : Str) : Option (List Xml) :=
  match xrun ⟨.text [], ⟨[], [], []⟩, []⟩ s with
  | some ⟨.text t, top, []⟩ => (flush top [] t).map (·.children)
  | _ => none

/-! The reader accepts and rejects what it should. -/
example : (readXml c!"<a b=\"1&amp;2\"> <mi>x&lt;y</mi><c/></a>") =
    some [.elem c!"a" [(c!"b", c!"1&2")] [.elem c!"mi" [] [.text c!"x<y"], .elem c!"c" [] []]] := by
  rfl
example : readXml c!"<a><b></a></b>" = none := by rfl
example : readXml c!"<a>" = none := by rfl
example : readXml c!"<a b=\"1\" b=\"2\"/>" = none := by rfl
example : readXml c!"<a b=\"1\"c=\"2\"/>" = none := by rfl
example : readXml c!"<mi>a&b</mi>" = none := by rfl
example : readXml c!"<mi><</mi>" = none := by rfl
example : readXml c!"<mrow>text</mrow>" = none := by rfl

end Verif.Spec

import Verif.Basic
/-! Model of crates/math-core-cli/src/html_entities.rs. -/
namespace Verif.Model

/-- html_entities.rs:3-14 `HTML_RESERVED_MAP`. -/
def reservedMap : List (Str × Char) :=
  [(c!"#34", '"'), (c!"quot", '"'), (c!"#38", '&'), (c!"amp", '&'), (c!"#39", '\''),
   (c!"apos", '\''), (c!"#60", '<'), (c!"lt", '<'), (c!"#62", '>'), (c!"gt", '>')]

/-- html_entities.rs:41-75, the loop, with `rest = input[next_start..]` (starting with `&`).
`buffer` already contains everything up to there. -/
def entityLoop (buffer : Str) (rest : Str) : Str :=
  let afterAmp := rest.drop 1
  match h1 : afterAmp.findIdx? (· == ';') with
  | none => buffer ++ rest                                   -- line 46-50 and 74
  | some index =>
    let name := afterAmp.take index
    let buffer :=
      match reservedMap.lookup name with
      | some replacement => buffer ++ [replacement]           -- line 54-57
      | none => buffer ++ rest.take (index + 2)               -- line 60, `input[next_start..=end]`
    let remaining := rest.drop (index + 2)                    -- `input[end + 1..]`
    match h2 : remaining.findIdx? (· == '&') with
    | some idx => entityLoop (buffer ++ remaining.take idx) (remaining.drop idx)
    | none => buffer ++ remaining
termination_by rest.length
decreasing_by
  have h1' := (List.findIdx?_eq_some_iff_getElem.mp h1).1
  have := (List.findIdx?_eq_some_iff_getElem.mp h2).1
  simp [afterAmp, remaining] at *
  omega

/-- html_entities.rs:19-76 `replace_html_entities`. -/
def replaceHtmlEntities (input : Str) : Str :=
  match input.findIdx? (· == '&') with
  | none => input
  | some first => entityLoop (input.take first) (input.drop first)

end Verif.Model

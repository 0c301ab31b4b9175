import Verif.Model.Bindings
/-!
Model of the constructors of the bindings: crates/math-core-python/src/lib.rs:31-121 and 301-311,
crates/math-core-wasm/src/lib.rs:161-266.

What pyo3 and wasm-bindgen do before the bodies run (filling in the defaults of the signature, and turning
Python and JavaScript values into Rust values of the declared types) is external code. So the options are given here
as Rust sees them.
-/
namespace Verif.Model

/-- lib.rs:188-232, `#[derive(Default)]`, with ast.rs:235-241 and 251-255, lib.rs:105-125, 127-140 and 154-158 -/
def MathCoreConfig.default (fmt : Rat → Str) : MathCoreConfig where
  prettyPrint := .never
  macros := []
  xmlNamespace := false
  ignoreUnknownCommands := false
  annotation := false
  allowUnreliableRendering := false
  globalGroup := false
  unicodeSubstitution := .conventional
  unknownClass := c!"math-core-unknown-cmd"
  indentation := .spaces 4
  maxExpansions := 1000
  idPrefix := []
  fmt := fmt

/-! ### Python -/

/-- A Python object, as far as `extract::<String>` distinguishes them: a string, or something else -/
inductive PyValue
  | str (s : Str)
  | other

/-- python lib.rs:32-58, the arguments of the constructor, with the defaults of the signature -/
structure PyOptions where
  prettyPrint : Str := c!"never"
  macros : Option (List (PyValue × PyValue)) := none
  xmlNamespace : Bool := false
  continueOnError : Bool := false
  ignoreUnknownCommands : Bool := false
  annotation : Bool := false
  allowUnreliableRendering : Bool := false
  globalGroup : Bool := false
  fancyError : Bool := true
  unicodeSubstitution : Str := c!"conventional"
  maxExpansions : Nat := 1000
  idPrefix : Str := []

/-- The exceptions of the constructor: a `ValueError` about an option with the value which was given, a `TypeError`,
or a `LatexError` with its message -/
inductive PyNewError
  | invalid (option value : Str)
  | notAString
  | latexError (message : Str)
  deriving DecidableEq

/-- python lib.rs:301-311 `dict_to_tuple_vec` -/
def dictToTupleVec : List (PyValue × PyValue) → Except PyNewError (List (Str × Str))
  | [] => .ok []
  | (key, value) :: rest =>
    match key with
    | .other => .error .notAString
    | .str key =>
      match value with
      | .other => .error .notAString
      | .str value =>
        match dictToTupleVec rest with
        | .error e => .error e
        | .ok vec => .ok ((key, value) :: vec)

/-- python lib.rs:59-69 -/
def pyPrettyPrint (s : Str) : Except PyNewError PrettyPrint :=
  if s = c!"never" then .ok .never
  else if s = c!"always" then .ok .always
  else if s = c!"auto" then .ok .auto
  else .error (.invalid c!"pretty_print" s)

/-- python lib.rs:70-79 -/
def pyUnicode (s : Str) : Except PyNewError UnicodeSubstitution :=
  if s = c!"conventional" then .ok .conventional
  else if s = c!"never" then .ok .never
  else .error (.invalid c!"unicode_substitution" s)

/-- python lib.rs:82-86 -/
def pyMacros : Option (List (PyValue × PyValue)) → Except PyNewError (List (Str × Str))
  | some dict => dictToTupleVec dict
  | none => .ok []

/-- python lib.rs:59-97: the configuration -/
def PyOptions.config (o : PyOptions) (fmt : Rat → Str) : Except PyNewError MathCoreConfig := do
  let prettyPrint ← pyPrettyPrint o.prettyPrint
  let unicodeSubstitution ← pyUnicode o.unicodeSubstitution
  let macros ← pyMacros o.macros
  .ok { prettyPrint, macros, xmlNamespace := o.xmlNamespace, ignoreUnknownCommands := o.ignoreUnknownCommands,
        annotation := o.annotation, allowUnreliableRendering := o.allowUnreliableRendering,
        globalGroup := o.globalGroup, unicodeSubstitution,
        unknownClass := (MathCoreConfig.default fmt).unknownClass,
        indentation := (MathCoreConfig.default fmt).indentation,
        maxExpansions := o.maxExpansions, idPrefix := o.idPrefix, fmt }

/-- python lib.rs:106-118: the message if a macro is invalid -/
def PyOptions.macroError (o : PyOptions) (texts : Texts) (e : MacroParseError) : Str :=
  let name := c!"macro" ++ decimal e.2.1
  if o.fancyError then texts.report e.1 name e.2.2
  else name ++ c!":" ++ toMessage e.1.start (texts.message e.1) e.2.2

/-- python lib.rs:45-121 `LatexToMathML.__new__`: what the object holds -/
def PyOptions.new (o : PyOptions) (texts : Texts) (fmt : Rat → Str) : Except PyNewError (PyFlags × Converter) := do
  let config ← o.config fmt
  match Converter.new config with
  | .ok inner => .ok ({ continueOnError := o.continueOnError, fancyError := o.fancyError, texts }, inner)
  | .error e => .error (.latexError (o.macroError texts e))

/-! ### JavaScript -/

/-- What the iterator of a JavaScript map gives: an entry (with the strings at its first two places, if there are
strings), something which is not an array, or an exception -/
inductive JsEntry
  | entry (key value : Option Str)
  | notAnArray
  | throws

/-- wasm lib.rs:91-103 and 122-157, the options. Each of them can be missing. -/
structure JsOptions where
  prettyPrint : Option Str := none
  macros : Option (List JsEntry) := none
  xmlNamespace : Option Bool := none
  throwOnError : Option Bool := none
  ignoreUnknownCommands : Option Bool := none
  annotation : Option Bool := none
  allowUnreliableRendering : Option Bool := none
  globalGroup : Option Bool := none
  unicodeSubstitution : Option Str := none
  maxExpansions : Option Nat := none
  idPrefix : Option Str := none

/-- What the constructor throws: a `ConfigParseError` or a `LatexError` -/
inductive JsNewError
  | config (message : Str)
  | latexError (e : JsError)
  deriving DecidableEq

/-- wasm lib.rs:166-185, the loop; `none` if it is left with `false` -/
def jsMacroLoop : List JsEntry → Option (List (Str × Str))
  | [] => some []
  | .throws :: _ => none
  | .notAnArray :: _ => none
  | .entry none _ :: _ => none
  | .entry (some _) none :: _ => none
  | .entry (some key) (some value) :: rest => (jsMacroLoop rest).map ((key, value) :: ·)

/-- wasm lib.rs:164-196 -/
def jsMacros : Option (List JsEntry) → Except JsNewError (Option (List (Str × Str)))
  | some entries =>
    match jsMacroLoop entries with
    | some macros => .ok (some macros)
    | none => .error (.config c!"Invalid macros map")
  | none => .ok none

/-- wasm lib.rs:197-211 -/
def jsPrettyPrint : Option Str → Except JsNewError (Option PrettyPrint)
  | some s =>
    if s = c!"always" then .ok (some .always)
    else if s = c!"never" then .ok (some .never)
    else if s = c!"auto" then .ok (some .auto)
    else .error (.config c!"Invalid value for prettyPrint")
  | none => .ok none

/-- wasm lib.rs:218-231 -/
def jsUnicode : Option Str → Except JsNewError UnicodeSubstitution
  | some s =>
    if s = c!"never" then .ok .never
    else if s = c!"conventional" then .ok .conventional
    else .error (.config c!"Invalid value for unicodeSubstitution")
  | none => .ok .conventional

/-- wasm lib.rs:164-248: the configuration -/
def JsOptions.config (o : JsOptions) (fmt : Rat → Str) : Except JsNewError MathCoreConfig := do
  let macros ← jsMacros o.macros
  let prettyPrint ← jsPrettyPrint o.prettyPrint
  let unicodeSubstitution ← jsUnicode o.unicodeSubstitution
  .ok { prettyPrint := prettyPrint.getD .never, macros := macros.getD [],
        xmlNamespace := o.xmlNamespace.getD false,
        ignoreUnknownCommands := o.ignoreUnknownCommands.getD false,
        annotation := o.annotation.getD false,
        allowUnreliableRendering := o.allowUnreliableRendering.getD false,
        globalGroup := o.globalGroup.getD false, unicodeSubstitution,
        unknownClass := (MathCoreConfig.default fmt).unknownClass,
        indentation := (MathCoreConfig.default fmt).indentation,
        maxExpansions := o.maxExpansions.getD 1000, idPrefix := o.idPrefix.getD [], fmt }

/-- wasm lib.rs:161-266, the constructor: what the object holds -/
def JsOptions.new (o : JsOptions) (ariadne : Bool) (texts : Texts) (fmt : Rat → Str) :
    Except JsNewError (JsFlags × Converter) := do
  let config ← o.config fmt
  let flags : JsFlags := { throwOnError := o.throwOnError.getD true, ariadne, texts }
  match Converter.new config with
  | .ok inner => .ok (flags, inner)
  | .error (e, _, context) => .error (.latexError
      { message := texts.message e, label := texts.label e,
        start := asU32 (byteOffsetToUtf16 context e.start), stop := asU32 (byteOffsetToUtf16 context e.stop),
        index := none, context := some context, report := flags.errorReport e c!"macro" context })

end Verif.Model

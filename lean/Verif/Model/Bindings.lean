import Verif.Model.Convert
import Verif.Model.ErrorHtml
/-!
Model of the bindings: crates/math-core-python/src/lib.rs and crates/math-core-wasm/src/lib.rs.

The texts of the messages (error.rs:152-349 `write_msg` and `label`) and the reports drawn by the
external crate `ariadne` are parameters, so the theorems hold for all of them.
-/
namespace Verif.Model

/-- The texts for an error: what `write_msg` and `label` (error.rs) give, and the report of `ariadne` for a
source with the given name (python lib.rs:20-27 `render_fancy_error`, wasm lib.rs:65-79 `error_report`) -/
structure Texts where
  message : LatexError → Str
  label : LatexError → Str
  report : LatexError → Str → Str → Str

/-- python lib.rs:131-135 and others, wasm lib.rs:274-278 and others -/
def displayOf (displaystyle : Bool) : MathDisplay := if displaystyle then .block else .inline

/-- A call of a method of the Python or JavaScript object -/
inductive Method
  | withGlobalState (latex : Str) (displaystyle : Bool)
  | withLocalState (latex : Str) (displaystyle : Bool)
  | all (snippets : List (Str × Bool))
  | reset

/-! ### Python -/

/-- python lib.rs:13-18, without the lock -/
structure PyFlags where
  continueOnError : Bool
  fancyError : Bool
  texts : Texts

/-- What a Python call does: return a string, return a list, return `None`, or raise an exception. `panic` is
pyo3's `PanicException`, `fuel` belongs to the model (the bound on the recursion is exceeded). -/
inductive PyReply
  | str (s : Str)
  | list (l : List Str)
  | none
  | latexError (message : Str)
  | lockError
  | panic
  | fuel
  deriving DecidableEq

/-- python lib.rs:276-301 `conversion_error` -/
def PyFlags.conversionError (f : PyFlags) (e : LatexError) (latex : Str) (index : Option Nat) : Str :=
  let sourceName := match index with
    | some i => c!"input" ++ decimal i
    | Option.none => c!"input"
  if f.fancyError then f.texts.report e sourceName latex
  else
    let err := match index with
      | some _ => sourceName ++ c!":"
      | Option.none => []
    err ++ toMessage e.start (f.texts.message e) latex

/-- python lib.rs:136-159 (= 174-197): the result of a single conversion -/
def PyFlags.one (f : PyFlags) (latex : Str) (displaystyle : Bool) : Outcome Out → PyReply
  | .ok out => .str out.s
  | .err e =>
    if f.continueOnError then .str (toHtml e.start (f.texts.message e) latex (displayOf displaystyle) Option.none)
    else .latexError (f.conversionError e latex Option.none)
  | .panic => .panic
  | .fuel => .fuel

/-- python lib.rs:235-256: the results of a batch from index `i` on; the first error ends it. -/
def PyFlags.many (f : PyFlags) : Nat → List (Str × Bool) → List (Outcome Out) → List Str → PyReply
  | i, (latex, displaystyle) :: rest, r :: rs, acc =>
    match r with
    | .ok out => f.many (i + 1) rest rs (acc ++ [out.s])
    | .err e =>
      if f.continueOnError then
        f.many (i + 1) rest rs
          (acc ++ [toHtml e.start (f.texts.message e) latex (displayOf displaystyle) Option.none])
      else .latexError (f.conversionError e latex (some i))
    | .panic => .panic
    | .fuel => .fuel
  | _, _, _, acc => .list acc

/-- `convert_all` of the library panics as a whole if one of the snippets makes it panic; this comes before the
loop over its results. -/
def batchCrash : List (Outcome Out) → Option PyReply
  | [] => Option.none
  | .panic :: _ => some .panic
  | .fuel :: _ => some .fuel
  | _ :: rs => batchCrash rs

/-- The body of each method, once the lock is held: python lib.rs:123-264 -/
def PyFlags.run (f : PyFlags) (fuel : Nat) (c : Converter) : Method → PyReply × Converter
  | .withGlobalState latex displaystyle =>
    let (r, c') := c.convertWithGlobalState fuel latex (displayOf displaystyle)
    (f.one latex displaystyle r, c')
  | .withLocalState latex displaystyle =>
    (f.one latex displaystyle (c.convertWithLocalState fuel latex (displayOf displaystyle)), c)
  | .all snippets =>
    let rs := c.convertAll fuel (snippets.map fun (latex, d) => (latex, displayOf d))
    ((batchCrash rs).getD (f.many 0 snippets rs []), c)
  | .reset => (.none, c.resetGlobalState)

/-! ### The lock

python lib.rs:15: a `std::sync::RwLock`. It admits either one writer or any number of readers; a panic while it
is held for writing poisons it, and then acquiring it fails (after having waited for it). -/

/-- Which lock a method takes: python lib.rs:138 (`write`), 176 (`write`), 231 (`read`), 260 (`write`) -/
def Method.writes : Method → Bool
  | .all _ => false
  | _ => true

/-- The state of the lock -/
inductive LockState
  | free
  | reading (threads : List Nat)
  | writing (thread : Nat)

/-- Can a thread get the lock now? -/
def LockState.admits : LockState → Bool → Bool
  | .free, _ => true
  | .reading ts, w => ts.isEmpty || !w
  | .writing _, _ => false

/-- The lock after a thread got it -/
def LockState.acquire (l : LockState) (t : Nat) (w : Bool) : LockState :=
  match l, w with
  | .reading ts, false => .reading (t :: ts)
  | _, false => .reading [t]
  | _, true => .writing t

/-- The lock after a thread gave it back -/
def LockState.release (l : LockState) (t : Nat) : LockState :=
  match l with
  | .reading ts => .reading (ts.erase t)
  | _ => .free

/-- What a thread is doing. Between any two of these steps the other threads may run: a thread has entered a
method; it has got the lock; it has read the shared converter; it is done, has written the converter back
and holds the lock no more. -/
inductive ThreadState
  | idle
  | waiting (m : Method)
  | holding (m : Method)
  | loaded (m : Method) (snapshot : Converter)
  | finished (m : Method) (r : PyReply)

/-- Some threads, each with its own sequence of calls still to make and of calls which have returned -/
structure Machine where
  shared : Converter
  poisoned : Bool := false
  lock : LockState := .free
  state : Nat → ThreadState := fun _ => .idle
  todo : Nat → List Method
  returned : Nat → List (Method × PyReply) := fun _ => []

/-- Change the value of a function at one point -/
def setAt {α : Type} (f : Nat → α) (t : Nat) (a : α) : Nat → α := fun t' => if t' = t then a else f t'

/-- One step of one thread. -/
inductive Step (f : PyFlags) (fuel : Nat) : Machine → Machine → Prop
  | enter {m t call rest} : m.state t = .idle → m.todo t = call :: rest →
      Step f fuel m { m with state := setAt m.state t (.waiting call), todo := setAt m.todo t rest }
  /-- The lock is acquired and not poisoned. -/
  | acquire {m t call} : m.state t = .waiting call → m.lock.admits call.writes = true → m.poisoned = false →
      Step f fuel m { m with state := setAt m.state t (.holding call), lock := m.lock.acquire t call.writes }
  /-- The lock is poisoned; the guard in the error is dropped at once: `map_err(|_| …)?`. -/
  | poisoned {m t call} : m.state t = .waiting call → m.lock.admits call.writes = true → m.poisoned = true →
      Step f fuel m { m with state := setAt m.state t (.finished call .lockError) }
  | load {m t call} : m.state t = .holding call →
      Step f fuel m { m with state := setAt m.state t (.loaded call m.shared) }
  /-- The method ends. A writer stores the converter; if it panics, the lock is poisoned. -/
  | store {m t call snapshot} : m.state t = .loaded call snapshot →
      Step f fuel m { m with
        state := setAt m.state t (.finished call (f.run fuel snapshot call).1)
        lock := m.lock.release t
        shared := if call.writes then (f.run fuel snapshot call).2 else m.shared
        poisoned := m.poisoned || (call.writes && (f.run fuel snapshot call).1 == .panic) }
  | return_ {m t call r} : m.state t = .finished call r →
      Step f fuel m { m with
        state := setAt m.state t .idle
        returned := setAt m.returned t (m.returned t ++ [(call, r)]) }

/-! ### JavaScript -/

/-- wasm lib.rs:31-42 `LatexError` -/
structure JsError where
  message : Str
  label : Str
  start : Nat
  stop : Nat
  index : Option Nat
  context : Option Str
  report : Option Str
  deriving DecidableEq

/-- wasm lib.rs:83-87. `ariadne` is a feature of the crate. -/
structure JsFlags where
  throwOnError : Bool
  ariadne : Bool
  texts : Texts

/-- What a JavaScript call does -/
inductive JsReply
  | str (s : Str)
  | array (l : List Str)
  | undefined
  | throws (e : JsError)
  | panic
  | fuel
  deriving DecidableEq

/-- wasm lib.rs:65-79 `error_report` -/
def JsFlags.errorReport (f : JsFlags) (e : LatexError) (name input : Str) : Option Str :=
  if f.ariadne then some (f.texts.report e name input) else Option.none

/-- `as u32` -/
def asU32 (n : Nat) : Nat := n % 4294967296

/-- wasm lib.rs:370-386 `conversion_error` -/
def JsFlags.conversionError (f : JsFlags) (e : LatexError) (content : Str) (index : Option Nat) : JsError where
  message := f.texts.message e
  label := f.texts.label e
  start := asU32 (byteOffsetToUtf16 content e.start)
  stop := asU32 (byteOffsetToUtf16 content e.stop)
  index := index
  context := Option.none
  report := f.errorReport e c!"input" content

/-- wasm lib.rs:279-288 (= 303-312) -/
def JsFlags.one (f : JsFlags) (content : Str) (displaystyle : Bool) : Outcome Out → JsReply
  | .ok out => .str out.s
  | .err e =>
    if f.throwOnError then .throws (f.conversionError e content Option.none)
    else .str (toHtml e.start (f.texts.message e) content (displayOf displaystyle) Option.none)
  | .panic => .panic
  | .fuel => .fuel

/-- wasm lib.rs:343-361 -/
def JsFlags.many (f : JsFlags) : Nat → List (Str × Bool) → List (Outcome Out) → List Str → JsReply
  | i, (latex, displaystyle) :: rest, r :: rs, acc =>
    match r with
    | .ok out => f.many (i + 1) rest rs (acc ++ [out.s])
    | .err e =>
      if f.throwOnError then .throws (f.conversionError e latex (some (asU32 i)))
      else f.many (i + 1) rest rs
        (acc ++ [toHtml e.start (f.texts.message e) latex (displayOf displaystyle) Option.none])
    | .panic => .panic
    | .fuel => .fuel
  | _, _, _, acc => .array acc

/-- As `batchCrash` -/
def jsBatchCrash : List (Outcome Out) → Option JsReply
  | [] => Option.none
  | .panic :: _ => some .panic
  | .fuel :: _ => some .fuel
  | _ :: rs => jsBatchCrash rs

/-- wasm lib.rs:267-367 -/
def JsFlags.run (f : JsFlags) (fuel : Nat) (c : Converter) : Method → JsReply × Converter
  | .withGlobalState latex displaystyle =>
    let (r, c') := c.convertWithGlobalState fuel latex (displayOf displaystyle)
    (f.one latex displaystyle r, c')
  | .withLocalState latex displaystyle =>
    (f.one latex displaystyle (c.convertWithLocalState fuel latex (displayOf displaystyle)), c)
  | .all snippets =>
    let rs := c.convertAll fuel (snippets.map fun (latex, d) => (latex, displayOf d))
    ((jsBatchCrash rs).getD (f.many 0 snippets rs []), c)
  | .reset => (.undefined, c.resetGlobalState)

end Verif.Model

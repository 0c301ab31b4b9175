# Formal model of math-core: design

`properties.jsonl` lists the properties (C01 …). This file says what is modelled, how each
property is proved, and what has to be trusted. It is kept current as the model grows.

## Method

* Lean 4.33.0. Text is `List Char`; a byte offset is the sum of `Char.utf8Size` over a prefix.
* Every Rust function in scope becomes a small total Lean function; `&mut self` becomes
  "return the new state"; `Result`/`Option` stay; a Rust panic would be an explicit error value.
  Loops become structural recursion, or recursion on a length/fuel that is proved sufficient.
* Each model definition carries a comment with the `/repo` file and line range it models
  and says where it simplifies.
* Files: `Verif/Model/*.lean` (the model), `Verif/Spec/*.lean` (small independent
  specifications), `Verif/Lemmas/*.lean` (helper lemmas), `Verif/Props/*.lean` (the property
  theorems, each followed by a non-vacuity example).
* Where the code does not have a property, the negation is proved with a concrete witness, the
  largest true part is proved under a name ending in `_partial`, and the finding is listed below.

## Plan per property

| id | modelled | proof |
|----|----------|-------|
| C01 | `escape_html_content` incl. the memchr loop | spec = independent unescaper; induction on the text; loop refinement to character-wise escape |
| C02 | `to_html`, attribute escaping | parse-back: split at first `"`/`<`, unescape = original |
| C03 | percent-encoding with FRAGMENT_SAFE over UTF-8 bytes, href/id writers | decoder as left inverse, injectivity; byte set by complete case analysis |
| C04 | whole lexer (`Lexer` struct with one-character lookahead) | measure = characters left; induction over token reads; span invariants |
| C05 | lexer `%` branch | simulation of two lexers with equal rest |
| C06 | lexer whitespace | simulation |
| C07 | lexer errors, `to_message`, UTF-16 offsets | induction on text |
| C08 | token queue (`queue`, `next_non_whitespace`, lexer) | refinement: abstract state = list of pending tokens; each operation commutes |
| C09 | `resolve_command`, three stores, builtin table as parameter | case analysis against a layered-map spec |
| C10 | `define_command`, `def_command`, `let_command`, `global_prefix`, `define`, from the source | refinement to an abstract map of names (`Spec/Preamble`): definitions as they are written at the beginning of a source, by induction over their number; then the grammar with the macros which are known after them |
| C11 | snippet = run of definitions on stores, then drop of local store | invariant over operations; for whole conversions, a condition on the commands mentioned in the source |
| C12 | `absorb` worklist loop | unfolding function on stores; loop invariant; termination because ranges point backwards |
| C13 | `CustomCmds` operations | invariant: token vector only grows |
| C14 | `queue_*_substituting`, `read_cmd_args`, `CmdArgs` | for any state of the parser: which tokens of the stream are the arguments (`Spec/Expansion`), what the call is replaced by, when it fails, that nothing else changes |
| C15 | `count_expansion`, expansion loop | counter invariant; termination measure |
| C16 | `parse_custom_commands` | permutation argument on first-wins insertion |
| C17–C19 | `LatexToMathML` as a state machine over the parser | induction over call histories |
| C20–C21 | `NumberedEnvState`, row/environment events | refinement to a list-of-rows spec, induction |
| C22–C25 | `Node::emit`, `emit_table`, `ColumnGenerator` | independent stack-machine well-formedness checker; structural induction on trees |
| C26 | `parse_column_specification` | induction on the string against a grammar spec |
| C27 | `limited_float_parse`, `parse_length_specification` | induction against a decimal-value spec; f64 rounding trusted |
| C28 | `SuperChar` encoding, Eytzinger lookup | bit arithmetic; complete table by `decide +kernel` and lifted |
| C29 | `transform_char` | range case analysis with `omega` |
| C30–C33 | `Replacer`, `replace_html_entities`, `line_and_col` | refinement to an unbounded search; induction on the document |
| C34 | `convert_html` over a file-system map | induction over the file list |
| C35 | `get_bounds` | induction over script tokens |
| C36 | every conversion of one source, and every snippet of a batch | a second pass over the parser: what it reads, with macros replaced and definitions made, is a word of a relation (`Unfolds`), and the word of every function is balanced; induction on fuel |
| C37 | spacing functions, and everything from the source to the nodes for the grammar | complete finite case analysis against a TeX rule table, then induction over formulas: each part has a type (`Spec/Spacing`), and the space around its element is the one of the core operator in the sense of MathML |
| C38 | RwLock methods as atomic sections of interleaved threads | simulation |
| C39 | `record_group`, `read_argument` | induction, balanced-prefix spec |
| C40 | `transform_char`, letter tokens | Unicode's alphabets as an independent table, complete case analysis |
| C41 | Python and JavaScript methods over the converter | case analysis over outcomes, induction over batches |
| C42 | every public conversion method, the whole parser | Hoare-style pass over the parser: every run ends, in a result or in an error inside the source |
| C43 | every public conversion method | counterexamples; without the commands which occur in them there is no internal error |
| C44 | everything from the source to the nodes, for the grammar with calls | the meaning of a formula does not change if calls are replaced by what they stand for (`Spec/Inline`): induction over formulas |
| C45 | everything from the source to the text, for the grammar | `Spec/Shape` gives the elements of a formula by recursion, without style, classes or state; by induction over formulas the tree of the meaning has these elements, and C22 takes them to the text |
| C46 | everything from the source to the text | false: induction over the number of calls shows that a source of linear length gives exponential output (C10 for the definition, the grammar for the calls); a bound for one expansion |
| C47 | whole calls of the interface | false: witnesses; what remains true follows from the invariants of the parser, which hold also at an error |
| C48 | constructors of the bindings | settings independent of the language; both constructors are shown to give the configuration asked for; induction over the calls |
| C49 | the CLI from the command line to the exit code, over an arbitrary library and file system | case analysis; the loop over directories by C34 |
| C50 | recursive mode | false: witnesses; what remains true by induction over the files |
| C51 | lexer, tables of characters and commands, class of tokens, spaces | the tables of unicode-math (docs/unicode-math-table.html) as specification; a finite table decided by the kernel and lifted to all code points; induction over the source; then C37 and C45 |
| C52 | the same tables, the whole parser | a relation between formulas of the grammar, shown to respect their meaning by mutual induction |
| C53 | everything from the source to the text | formulas of LaTeX as trees with a printing relation and a meaning of their own (`Spec/Tex.lean`, `Spec/Latex.lean`), and displays with their numbers (`Spec/Display.lean`), not mentioning the converter; every such formula is one of the grammar, by mutual induction, with the tables decided by the kernel; then C45, and C20 for the numbers; conversions without global state are those after a reset (`Props/TexLocal.lean`), and in a batch the state is that of the snippets before (`Props/TexBatch.lean`) |
| C54 | colours: `\color`, the table of names, numbers, digits, the attribute | colours of xcolor as a specification of their own (`Spec/Color.lean`); arithmetic for numbers of any length, tables decided by the kernel; then C53, C22 and C45 |
| C55 | commands with bodies in `predefined.rs`: their tokens, expansion, the limit | commands as a table of their own (`Spec/Compound.lean`, names and symbols from amsmath, mathtools and colonequals), formulas between them from `Spec/Tex.lean`; the form of the chain is built from the end with `Form.call`, by induction; the table against the bodies by a complete `decide`; `\bra`, `\ket`, `\braket`, `\Bra` and `\Ket` take a formula as argument, whose braces match by induction (`Lemmas/Even.lean`) |
| C56 | the errors of `parse_sequence`, `handle_tokens_without_output` and the arms for closing tokens, `&` and `$`; mismatched environments; missing arguments and scripts, double scripts | broken formulas as a syntax of their own (`Spec/Broken.lean`): formulas of `Spec/Tex.lean` up to the mistake on every level, openings (also of arguments and scripts), cells and rows around it, any rest; the loop of the parser fails with the same kind whatever has been collected, by induction over the formula before the mistake and over the openings (`Lemmas/Broken.lean`) |
| C57 | as for C53 | the characters of a document and of a tree, each by a recursion of its own; a document which displays a tree has its characters, by induction (`Props/Consistent.lean`); with C53 and C55. There too: no source is both a formula of C53 and a mistake of C56, because the converter gives one reply |

## How the parser is treated

`Verif/Model/Parser.lean` is the whole of `parser.rs` as a state monad (`Res`: result, error, panic, out of
steps). The recursion of the Rust functions becomes a bound on the recursion depth; every theorem about conversions says
"for all sufficiently large bounds" (`Gives`, `Reaches`), and `C42_every_call_returns` shows that for every call there
is such a bound and that the outcome is neither a panic nor lack of steps.

Six passes over the parser are the basis of the theorems about conversions:

1. **Outcome and yield** (`Lemmas/Logic*`, `RecArms*`, `RecMain`, `Snippet`, `Yield`). A Hoare-style calculus on
   states: every function ends, keeps the invariants of the queue, the stores and the groups, uses up
   input, and the nodes it returns have local properties and tags in the order of the counter.
   Used for C07, C11, C20, C22, C24, C42.
2. **Blindness** (`Lemmas/Blind.lean`). Two runs which differ only in the limit of expansions agree until one
   of them reaches its limit. Used for C15.
3. **Grammar** (`Spec/Grammar.lean`, `Lemmas/Grammar*`, `Does*`, `Exec`, `Source`). A grammar of formulas with a
   denotational meaning (`Form.denote`), independent of token queues and of recursion, and the theorem that the parser
   computes this meaning for every source which consists of the tokens of a formula (`Spells`), in every reachable state.
   The grammar has atoms, numbers, groups, fractions, binomials, `\genfrac`, roots, accents, `\cancel` and its relatives, phantoms,
   `\overset` and `\underset`, arrows with labels, `\cramped`,
   braces with labels, `\prescript`, `\left…\middle…\right`, `\big` and its relatives, `\mathrel` and its relatives,
   `\eqref`, `\hspace`, `\text` and its relatives, words and letters in a font, environments (described by the tables
   `envStyle`, `envNumbering`, … of the specification) with rows, cells, column specifications and `\hline`,
   `\tag`, `\label`, `\nonumber`, big operators, named operators and `\operatorname`, with or without `\limits` and its
   relatives, `\not` and its relatives, styles, `\color`, scripts, primes and calls of macros.
   Used for C20, C21, C22, C25, C35, C37, C44, C45.
4. **Rows** (`Spec/Rows.lean`, `Lemmas/Quiet`, `Rows`, `Tame`, `Untagged`, `Page`). The meaning of an environment,
   taken apart into rows and cells, with the numbers which are due. Used for C20, C21, C25.
5. **Definitions** (`Spec/Preamble.lean`, `Lemmas/Raw`, `Ahead`, `Preamble`, `PreambleRun`). What the parser does with
   definitions at the beginning of a source, when the things which were read ahead get a new meaning. Used for C10.
6. **Nesting** (`Spec/Nesting.lean`, `Lemmas/Nest*`). For every function of the parser, which tokens it has read when it
   succeeds, with macros replaced by what they stand for, and what is open after them. Used for C36.

The emitter (`Model/Emit.lean`) is proved against an independent XML reader (`Spec/Xml.lean`, `readXml`) and an
independent translation of syntax trees to MathML trees (`Spec/Mathml.lean`).

Witnesses about whole conversions (`Props/Findings.lean`) are equations which the kernel evaluates (`kernel_rfl` builds
the term `Eq.refl` and leaves the check to the kernel; it adds no axiom).

## Findings

Places where the code does not have the property. Each is a theorem with a concrete source or value.

| property | theorem | what happens |
|---|---|---|
| C02 | `C02_class_not_escaped` | the CSS class of an error is written without escaping |
| C10 | `C10_redefinition_too_late` | a redefinition in the argument of a macro does not reach later names of its body, which have been looked up before |
| C10 | `C10_no_new_name_in_argument` | a new name cannot be defined in the argument of a macro |
| C16 | `C16_duplicate` | two configured macros with the same name: the first silently wins |
| C20 | `C20_number_lost` | a row ended between `\left` and `\right` in `align` uses up a number which is not shown |
| C20 | `C20_suppressed_next_row` | `\tag{x}\nonumber` in a row also suppresses the number of the next row |
| C21 | `C21_label_lost` | `\label` in a row of `multline` which is not the last one is dropped |
| C22 | `C22_duplicate_attribute`, `…_middle` | `stretchy` is written twice on one element (parser.rs:768; a debug assertion in attribute.rs:31) |
| C22 | `C22_markup_injection`, `C22_operator_name_*` | the name in `\operatorname{…}` is written without escaping (ast.rs:359) |
| C22 | `C22_unknown_command_breaks` | the name of an unknown command is written without escaping |
| C22 | `C22_fraction_with_one_child` | an argument which produces nothing leaves `mfrac` with one child |
| C22 | `C22_control_character` | control characters are passed on |
| C45 | `C45_bar_after_inner_braket` | the meaning of a bar which is set by `\Braket`, `\set` or `\Set` is not restored but removed at the end (predefined.rs:142) |
| C22 | `C22_label_ampersand` | class and id prefix of the configuration are written without escaping |
| C25 | `C25_separator_lost_after_style`, `…_after_color`, `…_after_over`, `…_in_group` | `&` and `\\` after `\displaystyle`, `\color` or `\over` or in a group are silently dropped (ast.rs:722-727); a whole `align` becomes one cell |
| C27 | `C27_inch` | an inch is 72 points, not 72.27 |
| C29 | `C29_unassigned` | the unassigned code point U+03A2 is mapped to the same letter as U+03F4 |
| C32 | `C32_raw_ampersand_blocks` | a raw `&` keeps a following entity from being decoded |
| C33 | `C33_crash` | a document for which the CLI panics: a formula fails with the batch's state, but not when converted again for the report (replace.rs:188-199) |
| C34 | example at `C34_failure` | files are written in place; a failing write loses the document |
| C36 | `C36_stray_brace`, `C36_missing_brace` | `\text\textbf{a}}` is accepted and `\text\textbf{a}` rejected: the text parser takes it for granted that a second command is in braces (text_parser.rs:120, 176) |
| C37 | `C37_script_binary`, `C37_inner_inner`, `C37_inner_binary`, `C37_braces`, `C37_relation_with_script`, `C37_fence`, `C37_overbrace`, `C37_mathbin`, `C37_overset` | spaces which differ from TeX's |
| C38 | `C38_exclusive` | Python's `convert_with_local_state` takes the write lock although it changes nothing |
| C40 | `C40_fraktur_I` | `\mathfrak{I}` gives ℍ (attribute.rs:299) |
| C43 | `C43_internal_error_set`, `…_braket` | `\set{x_}`, `\Set{\hat}`, `\Braket{\sqrt}` are rejected with "internal parser error" at 0..0 (predefined.rs, parser.rs:2180-2186) |
| C43 | `C43_internal_error_definition` | with `ignore_unknown_commands`, definitions in arguments lead to an internal error (parser.rs:2488) |
| C43 | `C43_internal_error_definition_strict` | also without that option: `\newcommand\m[2]{a#1\x{1}#2\x{2}}\m{\def}{\newcommand}` (token_queue.rs:589-611 and 715-721, parser.rs:2488) |
| C10 | `C10_definition_not_seen` | after `\newcommand\m[1]{a#1\x{1}\x}`, `\m{\def}` is rejected because of the unknown command `\x`, although `\m{\newcommand}` works (token_queue.rs:715-721) |
| C44 | `C44_class_of_argument` | a macro whose body begins with a parameter has no class of its own: `a=\m{=}b` is not spaced like `a==b` |
| C44 | `C44_class_of_macro`, `C44_class_of_redefined` | the class of a macro which begins with another macro is missing (configuration) or outdated (source) |
| C44 | `C44_digits` | `1\m` with `\m` = 2 gives two numbers, `12` one |
| C46 | `C46_output_grows` | the limit on expansions limits their number, not the size of what is expanded: `\def\d#1#2{#2{#1#1}}\d{x}\d\d…\d1` with `n` further calls gives `2^(n+1)` letters; with the default limit of 1000, two kilobytes of source exhaust any memory (parser.rs:2652, token_queue.rs:572) |
| C47 | `C47_definition_stays`, `C47_number_and_label_stay` | a failing snippet with global state leaves its definitions, numbers and labels up to the error; later references link to an equation which is nowhere in the output |
| C49 | `C49_dry_run_prints` | `--dry-run` with the document on standard input prints it (main.rs:171-183) |
| C49 | `C49_recursive_alone` | `--recursive` without a path is accepted; standard input is converted as a formula |
| C49 | `C49_delimiters_ignored` | `--inline-open` and `--block-open` are accepted together with a formula, and ignored (`--inline-del` is not accepted) |
| C51 | `C51_middle_dot` | a typed middle dot U+00B7 gets the spaces of punctuation, although it stands in the section of binary operators (commands.rs:1132) and is one in unicode-math |
| C51 | `C51_triangle` | some typed binary operators and relations of unicode-math, such as U+25B5, are ordinary symbols (`oddChars` in `Spec/Typed.lean` is the complete list) |
| C51 | `C51_other_symbol` | 18 commands have another symbol or type than in unicode-math, such as `\models` and `\Join` (`oddNames` is the complete list) |
| C52 | `C52_therefore` | `\therefore` is a relation, `∴` an ordinary symbol; 51 commands are not the same as the character they show (`oddCommands` is the complete list, with upright capital Greek letters, `C52_gamma`) |
| C53 | `C53_det` | scripts of `\det` are at the side; LaTeX puts them below, as for `\max` and `\gcd` (commands.rs:25) |
| C53 | `C53_colon` | `\colon` is an ordinary symbol (punctuation in LaTeX), so is `\bigcirc` (binary); `\lhd`, `\rhd`, `\unlhd`, `\unrhd` are relations (binary) |
| C53 | `C53_left_less` | `\left<` is rejected (an angle bracket in LaTeX) |
| C53 | `C53_row_space` | `\\[…]` in a table does not set the space between rows: the brackets and what is in them are shown in the next row (parser.rs:1717) |
| C53 | `C53_font_next_cell` | `\bf` in a cell is in force in the cells and rows which follow (parser.rs: the font is reset at the end of the environment only) |
| C53 | `C53_style_over` | the numerator of `\over` begins after `\displaystyle` or `\color` |
| C53 | `C53_root_style` | `\sqrt[\displaystyle a]{b}` is rejected (unclosed group; parser.rs:83-94) |
| C53 | `C53_color_digits`, `C53_genfrac_style` | `\color[HTML]` with invalid digits means 0; a wrong style digit in `\genfrac` is reported as the end of the source |
| C54 | `C54_odd_colours`, `C54_too_large` | `green`, `orange` and seven other base names have other levels than in xcolor (color_defs.rs); levels over 255 are cut off and a fourth number is ignored |
| C55 | `C55_argument` | as an argument, a command like `\ldots` or a macro of the user is only its first symbol: `\frac\ldots 2` is a dot over a dot, and then the third dot and the 2 |
| C50 | `C50_numbers`, `C50_definitions` | in recursive mode equation numbers and global definitions go on from file to file, in the order in which the directory is listed |

Seen in the code, without a theorem: an unknown key of the configuration file is silently ignored (the file `mathcore.toml` of the repository itself has one,
`continue-on-error`); in JavaScript `maxExpansions: Infinity` means 0.

## Validation of the model

The Rust program cannot be run here. The model can: it was run on the sources of the snapshot tests in /repo and compared
with the snapshots. Conversions: 541 of 543 agree; errors: 161 of 161 agree; sessions with definitions and configured macros:
111 of 111 agree; substitutions: 22 of 22 agree. The two which do not agree are `genfrac_0.4pt` (rounding of an f32, which the
model does not do) and `text_diacritics` (the decoding of the snapshot by the script).

## Trusted base

* Lean's kernel. Axioms: every theorem depends on at most `propext`, `Classical.choice`, `Quot.sound`.
* The faithfulness of the hand-written model to the Rust source (cited line by line), checked by the snapshots above.
* Rust's semantics of the standard library functions used (`Vec`, `VecDeque`, `str` slicing,
  `char` predicates), `memchr`/`memmem` (leftmost occurrence), `percent-encoding`, `phf`, `FxHashMap`, `RwLock` (many
  readers or one writer; a panic of a writer poisons): modelled by their documented behaviour.
* The commands of LaTeX and amsmath and what they show (`Spec/Latex.lean`), and the meaning of formulas (`Spec/Tex.lean`), which were
  written by hand from the documentation of LaTeX.
* The types and characters of symbols in unicode-math (`Spec/UnicodeMath.lean`, generated from docs/unicode-math-table.html in
  the repository) are the specification of C51.
* MathML's operator dictionary: for C37 the spaces which a renderer adds by itself are part of the specification.

Modelled: `math-core` (lexer, token queue, commands and symbols, definitions, environments, parser, text parser, column
specifications, lengths, colours, configuration, public methods), `mathml-renderer` (nodes, attributes, letters, emitter,
escaping, tables), the CLI's replacement of formulas in HTML, entities, file handling, options and exit codes; the
constructors and conversion methods of the Python and JavaScript bindings with the lock.

Not modelled: the rendering of numbers (`dtoa`, f32; a parameter `fmt`), the texts of messages and `ariadne` reports, the
reading of TOML, clap (beyond what its attributes are documented to mean), the conversion of Python and JavaScript values to
Rust types by pyo3 and wasm-bindgen, the string pool and arenas (memory only), the
depth of the stack, debug assertions, the behaviour of the operating system when a write fails midway beyond "the content
is lost". Sizes of integers are modelled where they matter (counters, offsets).

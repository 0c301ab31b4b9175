{"id": "C01", "title": "LaTeX source embedded in the output is inert and recoverable", "statement": "When the converter embeds source text as element content (the TeX annotation, the <code> body of an error rendered as HTML), the embedded text contains no raw '<' or '>', every '&' in it starts one of the entities the escaper writes, and un-escaping it gives back exactly the source text.", "quantifier": "every source string of any length, and every text already in the output buffer", "why_tests_cant": "An escaping hole shows only on the one combination of characters the fast path skips wrongly; the set of source strings is infinite.", "anchors": ["crates/math-core/src/html_utils.rs: escape_html_content", "crates/math-core/src/lib.rs: emit (annotation branch)", "crates/math-core/src/error.rs: to_html"]}
{"id": "C02", "title": "Error messages cannot break out of the title attribute", "statement": "The HTML produced for a failed conversion is always one element of the form <p|span class=.. title=\"MESSAGE\"><code>SOURCE</code></p|span>: reading the attribute value up to the next double quote and un-escaping it gives the error message, and reading the content up to the next '<' and un-escaping it gives the source.", "quantifier": "every error message, every source string, both display styles and every class name free of double quotes", "why_tests_cant": "User-controlled text reaches both positions; injection is a statement about all texts.", "anchors": ["crates/math-core/src/error.rs: LatexError::to_html", "crates/math-core/src/html_utils.rs: escape_double_quoted_html_attribute"]}
{"id": "C03", "title": "A reference link points at exactly the equation carrying the same label", "statement": "The fragment written in the href of \\eqref{a} equals the id written for an equation labelled b (with the same id prefix) if and only if a = b, and neither contains a double quote, '<', '>', '#', a space or a control character.", "quantifier": "every pair of labels and every id prefix", "why_tests_cant": "Injectivity over all pairs of labels is not a finite check.", "anchors": ["crates/mathml-renderer/src/escaping.rs: FRAGMENT_SAFE", "crates/mathml-renderer/src/ast.rs: EqRef, write_equation_num"]}
{"id": "C04", "title": "Tokenising terminates and covers the input", "statement": "Reading tokens from any input ends, after at most (number of characters + 1) tokens, in either the end-of-input token located at the end of the input or an error; once at the end it stays there. Every token's span lies inside the input, starts at or after the end of the previous one and falls on character boundaries; the text between two consecutive spans consists only of whitespace and comments.", "quantifier": "every input string", "why_tests_cant": "Unbounded inputs; non-progress or an off-by-one in spans shows only at particular boundaries (multi-byte characters, end of input inside a construct).", "anchors": ["crates/math-core/src/lexer.rs: next_token, read_command, read_env_name, skip_whitespace"]}
{"id": "C05", "title": "Comments have no effect", "statement": "Replacing the text of a comment (from an unescaped '%' up to the newline) by any other newline-free text, leaves the sequence of tokens the parser sees unchanged apart from their positions.", "quantifier": "every input with a comment at any token boundary, and every replacement text without a newline", "why_tests_cant": "All comment texts and all positions.", "anchors": ["crates/math-core/src/lexer.rs: next_token ('%' branch)"]}
{"id": "C06", "title": "Runs of whitespace are equivalent to a single space", "statement": "Replacing any run of ASCII whitespace between tokens by any other non-empty run leaves the token sequence unchanged apart from positions, and the tokeniser never emits two whitespace tokens in a row.", "quantifier": "every input and every pair of non-empty whitespace runs", "why_tests_cant": "All runs and positions.", "anchors": ["crates/math-core/src/lexer.rs: next_token, skip_whitespace"]}
{"id": "C07", "title": "Error positions are valid positions of the source", "statement": "The span reported with a tokeniser error lies inside the source, on character boundaries; the column in the printed message is the number of characters before the start of the span, and the UTF-16 offset given to JavaScript is the number of UTF-16 code units before it.", "quantifier": "every source string and every error", "why_tests_cant": "Off-by-one and multi-byte mistakes depend on the input.", "anchors": ["crates/math-core/src/error.rs: to_message", "crates/math-core/src/lexer.rs", "crates/math-core-wasm/src/lib.rs: byte_offset_to_utf16_offset"]}
{"id": "C08", "title": "Lookahead is transparent", "statement": "Whatever sequence of peeks (next token, second token, character class of the next atom) the converter performs, the tokens it subsequently consumes are exactly those of the source in order, with whitespace removed when and only when a whitespace-skipping read is made; the token returned by peeking is the token that the next read returns.", "quantifier": "every source, every interleaving of peeks, reads and push-backs", "why_tests_cant": "All interleavings of queue operations.", "anchors": ["crates/math-core/src/token_queue.rs: peek, peek_second, next, next_any, load_token, ensure_next_non_whitespace, queue_in_front"]}
{"id": "C09", "title": "Command names resolve to the innermost definition", "statement": "A command name means: the snippet-local definition if there is one, else the document definition, else the configured macro, else the built-in command, else it is unknown. A definition in one layer never changes what any other name means.", "quantifier": "every combination of stores and every name", "why_tests_cant": "All histories of definitions.", "anchors": ["crates/math-core/src/token_queue.rs: resolve_command", "crates/math-core/src/custom_cmds.rs: get"]}
{"id": "C10", "title": "\\newcommand, \\renewcommand and \\providecommand guard existing names", "statement": "\\newcommand succeeds exactly if the name is undefined, \\renewcommand exactly if it is defined, \\providecommand always succeeds but changes nothing if the name is defined; after success the name (and only that name) has the new meaning.", "quantifier": "every history of definitions, every name, scope and body", "why_tests_cant": "The guard must consult all layers in all states.", "anchors": ["crates/math-core/src/parser.rs: define_command", "crates/math-core/src/token_queue.rs: define"]}
{"id": "C11", "title": "Local definitions do not leak, global definitions persist", "statement": "After a snippet has been converted, the meaning of every name in later snippets is changed only by definitions the snippet made globally (\\global, \\gdef, or any definition when global_group is set); all other definitions are forgotten, whether the snippet succeeded or failed.", "quantifier": "every snippet, configuration and prior history", "why_tests_cant": "All histories.", "anchors": ["crates/math-core/src/parser.rs: define_command, let_command, global_prefix", "crates/math-core/src/token_queue.rs: define", "crates/math-core/src/lib.rs: convert_with_global_state"]}
{"id": "C12", "title": "Global definitions are self-contained", "statement": "A definition made global keeps its meaning after the snippet ends: fully unfolding it in the document store gives the same tokens as unfolding it, at definition time, with the local store available; no stored document definition refers to the snippet-local store.", "quantifier": "every local store reachable by definitions, every body, any nesting of references", "why_tests_cant": "Chains of references of unbounded length.", "anchors": ["crates/math-core/src/custom_cmds.rs: absorb, insert_or_replace_and_copy_local"]}
{"id": "C13", "title": "Bodies captured by \\let survive later redefinitions", "statement": "A reference to a macro body obtained at some point still denotes the same body after any later sequence of definitions, redefinitions and removals in the same store, and is always in bounds.", "quantifier": "every sequence of store operations except clearing", "why_tests_cant": "All histories of operations.", "anchors": ["crates/math-core/src/custom_cmds.rs: body, insert, insert_or_replace, remove"]}
{"id": "C14", "title": "Macro expansion substitutes arguments simultaneously and in order", "statement": "Expanding a macro call replaces every #i in the body by the tokens of the i-th argument (braces for an empty argument), leaves all other tokens in order, never rescans argument text for parameters, and leaves the remaining input untouched after the expansion; an empty body leaves no visible output.", "quantifier": "every body, every argument list (up to nine), every following input", "why_tests_cant": "All bodies and arguments.", "anchors": ["crates/math-core/src/token_queue.rs: queue_body_substituting, queue_stored_body_substituting, push_arg_front, CmdArgs"]}
{"id": "C15", "title": "Macro expansion is bounded", "statement": "One conversion performs at most max_expansions macro expansions; a source needing more fails with the corresponding error instead of looping, in particular for (mutually) recursive macros.", "quantifier": "every source, macro set and limit", "why_tests_cant": "Non-termination cannot be observed by a test.", "anchors": ["crates/math-core/src/parser.rs: count_expansion", "crates/math-core/src/lib.rs: MaxExpansions"]}
{"id": "C16", "title": "Configured macros are order-independent and checked", "statement": "Creating a converter succeeds exactly if every macro has a valid name, tokenises, and only mentions built-in or configured names; for distinct names the meaning of each macro does not depend on the order of the list, and an error names the index and text of an offending macro.", "quantifier": "every list of macros", "why_tests_cant": "All lists and permutations.", "anchors": ["crates/math-core/src/lib.rs: parse_custom_commands", "crates/math-core/src/custom_cmds.rs: is_valid_macro_name"]}
{"id": "C17", "title": "Conversion with local state is history-independent", "statement": "convert_with_local_state returns the same result whatever calls were made before on the same converter, and does not influence any later call.", "quantifier": "every sequence of API calls before and after", "why_tests_cant": "All histories of calls.", "anchors": ["crates/math-core/src/lib.rs: convert_with_local_state"]}
{"id": "C18", "title": "reset_global_state restores the initial state", "statement": "After reset_global_state, every later sequence of calls returns what it would return on a freshly created converter with the same configuration.", "quantifier": "every history before and every sequence of calls after", "why_tests_cant": "All histories.", "anchors": ["crates/math-core/src/lib.rs: reset_global_state", "crates/math-core/src/global_state.rs"]}
{"id": "C19", "title": "Batch conversion resolves forward references and equals sequential parsing", "statement": "convert_all returns one result per snippet, in order; a reference in any snippet resolves to the tag of the label defined by any snippet of the batch; it neither reads nor changes the global state; a failing snippet does not stop the others.", "quantifier": "every list of snippets and prior history", "why_tests_cant": "All batches.", "anchors": ["crates/math-core/src/lib.rs: convert_all"]}
{"id": "C20", "title": "Automatic equation numbers are consecutive", "statement": "Over any sequence of rows in numbered environments, the automatically assigned numbers are exactly c+1, c+2, ... in row order, with no gap or repetition, where c is the counter at the start; rows with a custom tag, suppressed rows and rows of starred environments consume no number; multline consumes exactly one, on its last row.", "quantifier": "every sequence of environments, rows and \\tag/\\nonumber/\\label events, across snippets sharing the state", "why_tests_cant": "All histories of rows.", "anchors": ["crates/math-core/src/environments.rs: NumberedEnvState::next_equation_tag", "crates/math-core/src/parser.rs: NewLine, Begin"]}
{"id": "C21", "title": "\\tag, \\nonumber and \\label determine a row's tag", "statement": "The tag shown for a row is its \\tag text if given, nothing if the row is suppressed or not numbered by default, else the next number; a \\label on the row is bound to the tag of that row.", "quantifier": "every sequence of events within an environment", "why_tests_cant": "All event sequences.", "anchors": ["crates/math-core/src/environments.rs", "crates/math-core/src/parser.rs: Tag, Label, NoNumber"]}
{"id": "C22", "title": "Output is well-formed markup", "statement": "For every syntax tree the converter can emit, the output is well-formed: tags are properly nested and closed, attribute values are quoted, text contains no raw markup characters.", "quantifier": "every syntax tree of any size and depth, every configuration", "why_tests_cant": "All trees.", "anchors": ["crates/mathml-renderer/src/ast.rs: Node::emit", "crates/math-core/src/lib.rs: emit"]}
{"id": "C23", "title": "Pretty-printing changes only whitespace between tags", "statement": "The output with pretty-printing and any indentation, with the inserted line breaks and indentation removed, equals the compact output.", "quantifier": "every syntax tree and indentation", "why_tests_cant": "All trees.", "anchors": ["crates/mathml-renderer/src/ast.rs: Node::emit", "crates/mathml-renderer/src/fmt.rs: new_line_and_indent"]}
{"id": "C24", "title": "Warnings are exact", "statement": "A conversion reports an undefined-reference warning exactly if the tree contains a reference to a label without a tag, and an unknown-command warning exactly if it contains an unknown command.", "quantifier": "every syntax tree and label table", "why_tests_cant": "All trees.", "anchors": ["crates/mathml-renderer/src/ast.rs: emit (EqRef, UnknownCommand), Warnings"]}
{"id": "C25", "title": "Table markup has one row per source row and one cell per source cell", "statement": "The rows and cells of the emitted table are exactly the rows and cells separated by \\\\ and & in the source, in order, plus the separator cells the column specification asks for; rows and cells are properly nested.", "quantifier": "every table content and column specification", "why_tests_cant": "All tables.", "anchors": ["crates/mathml-renderer/src/ast.rs: emit_table", "crates/mathml-renderer/src/table.rs: ColumnGenerator"]}
{"id": "C26", "title": "Column specifications are parsed exactly", "statement": "An array column specification is accepted exactly if it consists of l, c, r, |, : and whitespace and has at least one column letter; the resulting columns have the given alignments in order and every bar is kept as a border or line.", "quantifier": "every specification string", "why_tests_cant": "All strings.", "anchors": ["crates/math-core/src/specifications.rs: parse_column_specification"]}
{"id": "C27", "title": "Numbers and lengths are parsed exactly", "statement": "A length is accepted exactly if it is an optional minus, digits with at most one dot (at least one digit, value below 2^64 without the dot), optional spaces and a known unit (any case); the value is the decimal number written.", "quantifier": "every string", "why_tests_cant": "All strings.", "anchors": ["crates/math-core/src/atof.rs: limited_float_parse", "crates/math-core/src/specifications.rs: parse_length_specification"]}
{"id": "C28", "title": "Negated and overlaid symbols are encoded losslessly", "statement": "A symbol with overlays and a variation selector is rendered as exactly its base character, the selector and the overlays; negating twice is the same as once, overlays commute, and the precomposed negated character is used exactly if the table lists one.", "quantifier": "every character, selector and overlay combination", "why_tests_cant": "All 1.1 million characters in all combinations.", "anchors": ["crates/mathml-renderer/src/super_char.rs"]}
{"id": "C29", "title": "Font commands map letters injectively", "statement": "Within each math alphabet, different letters or digits are mapped to different characters, characters outside the alphabet are left unchanged, and the result is always a valid character.", "quantifier": "every character and every alphabet", "why_tests_cant": "All characters and alphabets, including the irregular holes.", "anchors": ["crates/mathml-renderer/src/attribute.rs: TextTransform::transform_char"]}
{"id": "C30", "title": "The CLI changes only the math", "statement": "The output document is the input document with every delimited formula replaced by its conversion and every other byte unchanged, in order.", "quantifier": "every document, delimiter set and converter", "why_tests_cant": "All documents.", "anchors": ["crates/math-core-cli/src/replace.rs: Replacer::replace"]}
{"id": "C31", "title": "Windowed delimiter search finds the first delimiter", "statement": "The search for the next delimiter, which looks at growing windows, returns the same result as a search over the whole rest of the document.", "quantifier": "every document and delimiter set", "why_tests_cant": "Delimiters straddling a window boundary at any size.", "anchors": ["crates/math-core-cli/src/replace.rs: find_next_delimiter"]}
{"id": "C32", "title": "HTML entities in formulas are decoded exactly once", "statement": "Un-escaping a formula taken from HTML that was escaped with the standard five entities gives back the original; text without '&' is unchanged; nothing is decoded twice.", "quantifier": "every string", "why_tests_cant": "All strings.", "anchors": ["crates/math-core-cli/src/html_entities.rs: replace_html_entities"]}
{"id": "C33", "title": "Delimiter errors are reported exactly and at the right place", "statement": "The CLI reports an unclosed, mismatched or nested delimiter exactly if the document has one, at its byte position, and line and column printed are those of that position; no later formula is converted.", "quantifier": "every document", "why_tests_cant": "All documents.", "anchors": ["crates/math-core-cli/src/replace.rs: replace, line_and_col"]}
{"id": "C34", "title": "The CLI never writes a file when a conversion fails or on a dry run", "statement": "A file is written only if the conversion of the whole document succeeded, writing was requested and the contents changed; then it holds exactly the converted document. A failure leaves all not-yet-processed files untouched.", "quantifier": "every set of files and every failure point", "why_tests_cant": "All failure points.", "anchors": ["crates/math-core-cli/src/main.rs: convert_html"]}
{"id": "C35", "title": "A base has at most one subscript and one superscript", "statement": "For every sequence of ^, _ and primes after a base, parsing either attaches one subscript and one superscript (primes merged into the superscript in order) or fails with a duplicate-script error exactly if there are two of a kind.", "quantifier": "every sequence of script tokens", "why_tests_cant": "All sequences.", "anchors": ["crates/math-core/src/parser.rs: get_bounds, get_sub_or_sup"]}
{"id": "C36", "title": "Environments must be closed by their own \\end", "statement": "A conversion succeeds only if groups, \\left/\\right, and \\begin/\\end are properly nested with matching names; column separators are accepted only inside environments with columns.", "quantifier": "every token sequence", "why_tests_cant": "All nestings.", "anchors": ["crates/math-core/src/parser.rs: parse_sequence, Begin", "crates/math-core/src/token.rs: EndToken::matches", "crates/math-core/src/environments.rs: allows_columns"]}
{"id": "C37", "title": "Operator spacing depends only on the neighbouring atoms", "statement": "The explicit spacing attributes of a relation, binary operator or punctuation mark are a function of the classes of the atoms on its two sides, following TeX's rule table.", "quantifier": "every pair of neighbours and style", "why_tests_cant": "Combinatorial rule table over all contexts.", "anchors": ["crates/math-core/src/parser.rs: relation_spacing, bin_op_spacing, punctuation_spacing, mathop_spacing"]}
{"id": "C38", "title": "Concurrent use from Python is serialisable", "statement": "Under every interleaving of threads calling the converter object, each call returns what it returns in some sequential order of all calls consistent with each thread's order.", "quantifier": "every number of threads and every schedule", "why_tests_cant": "All schedules.", "anchors": ["crates/math-core-python/src/lib.rs: LatexToMathML (RwLock)"]}
{"id": "C39", "title": "A text group in the source is closed by its own brace", "statement": "Reading a braced argument returns exactly the tokens between the brace and its matching closing brace, and fails with an unclosed-group error exactly if there is no matching one.", "quantifier": "every token sequence and nesting depth", "why_tests_cant": "Unbounded nesting depth.", "anchors": ["crates/math-core/src/token_queue.rs: record_group, read_argument"]}
{"id": "C40", "title": "Font commands produce the Unicode character of the alphabet", "statement": "A letter, digit or Greek letter set in a math alphabet (\\mathbf, \\mathfrak, ...) is rendered as the character Unicode assigns to it in that alphabet, including the characters Unicode encodes among the letterlike symbols.", "quantifier": "every character and every alphabet", "why_tests_cant": "The tests sample a few letters per alphabet; the mapping has hand-written exceptions for more than twenty letters, any of which may be wrong.", "anchors": ["crates/mathml-renderer/src/attribute.rs: TextTransform::transform_char"]}
{"id": "C41", "title": "Errors in the Python and JavaScript bindings", "statement": "If errors are to be shown (continue_on_error, throwOnError: false), no conversion raises a LaTeX error and every formula is replaced either by its MathML or by its error as HTML; otherwise a call raises exactly if a formula fails, a batch raises the error of the first failing snippet and names its index, and JavaScript gets the position in UTF-16 code units. The state of the converter afterwards does not depend on these settings.", "quantifier": "every converter, formula, batch and setting", "why_tests_cant": "All batches and positions of failing snippets.", "anchors": ["crates/math-core-python/src/lib.rs: convert_with_global_state, convert_with_local_state, convert_all, conversion_error", "crates/math-core-wasm/src/lib.rs: convert_with_local_state, convert_all, conversion_error, byte_offset_to_utf16_offset"]}
{"id": "C42", "title": "Every call returns", "statement": "For every source, whatever it is and whatever was converted before, a conversion comes to an end and either yields MathML or reports a LaTeX error; it never panics and never loops. A batch gets exactly one such result per snippet.", "quantifier": "every configuration accepted by the constructor, every sequence of calls, every source text", "why_tests_cant": "There are infinitely many sources, including malformed and self-referential ones, and the parser contains many slice accesses, unwraps and loops.", "anchors": ["crates/math-core/src/lib.rs: convert_with_global_state, convert_with_local_state, convert_all", "crates/math-core/src/parser.rs: Parser::parse", "crates/math-core/src/token_queue.rs"]}
{"id": "C43", "title": "No formula leads to an internal error", "statement": "Whatever the source is, a rejected formula is rejected with an error that describes a mistake in the formula; the error 'internal parser error', which is meant for bugs of the library, is never reported.", "quantifier": "every configuration, every sequence of calls and every source text", "why_tests_cant": "The internal error is reported in the branches which the authors believe to be unreachable; a test would need to know the source which reaches them.", "anchors": ["crates/math-core/src/parser.rs: parse_token (Whitespace, MathOrTextMode, VerticalLineDef, CustomCmdArg), parse_environment, define_command", "crates/math-core/src/error.rs: LatexErrKind::Internal", "crates/math-core/src/predefined.rs"]}
{"id": "C44", "title": "A macro call is the same as its written-out body", "statement": "Writing a formula with macros gives the same MathML as writing out, in place of every call, the body of the macro with the arguments put in: the same elements, equation numbers and labels, the same spacing, and the same error if the written-out formula is wrong. The only exception is that more macro expansions than configured lead to the error about too many expansions.", "quantifier": "every configuration, every history, every formula and every set of macros, nested calls included", "why_tests_cant": "The claim compares two conversions for all formulas and macros; which class a call has for the spacing of its neighbours depends on the bodies of macros in ways a few examples do not show.", "anchors": ["crates/math-core/src/token_queue.rs: queue_body_substituting, queue_stored_body_substituting", "crates/math-core/src/parser.rs: parse_token (CustomCmd, CustomCmdRef), peek_class_token", "crates/math-core/src/token.rs: Token::class", "crates/math-core/src/custom_cmds.rs: register"]}
{"id": "C45", "title": "Every construct becomes its MathML element", "statement": "The elements of the output are determined by the source, construct by construct: a fraction is an mfrac with the elements of its two arguments, a root an msqrt or mroot, scripts an msub, msup or msubsup around their base, limits an munder or mover, an environment an mtable with its rows and cells, and so on, in the order of the source. Style commands, inline or display mode, neighbouring symbols and earlier conversions change attributes and the numbers of equations, but neither which elements there are nor their content; only references depend on labels.", "quantifier": "every configuration, every history, every formula, both ways of displaying", "why_tests_cant": "Snapshot tests show the elements of single formulas; that the elements do not depend on the context has to hold for every combination of formula, style, neighbours and history.", "anchors": ["crates/math-core/src/parser.rs: parse_token, parse_sequence, get_bounds, node_vec_to_node", "crates/math-core/src/environments.rs: construct_node", "crates/mathml-renderer/src/ast.rs: emit"]}
{"id": "C46", "title": "The size of the output is bounded by the source", "statement": "The amount of output, and so of time and memory, for one snippet is bounded by a small function of the length of the source and the limit on macro expansions: a short source from an untrusted author cannot exhaust memory, because the limit on expansions stops it.", "quantifier": "every source, every limit on expansions", "why_tests_cant": "The growth depends on how macros are combined; a test of a few macros stays small, the bound has to hold for every source up to the limit.", "anchors": ["crates/math-core/src/lib.rs: MaxExpansions", "crates/math-core/src/parser.rs: count_expansion, read_cmd_args", "crates/math-core/src/token_queue.rs: queue_stored_body_substituting"]}
{"id": "C47", "title": "A failed conversion leaves no trace", "statement": "A conversion which fails has no effect on later conversions: with global state, the definitions, equation numbers and labels are afterwards as if the failed call had not been made, so that the page shows consecutive numbers and no links to equations which are not in the output.", "quantifier": "every configuration, every history, every source which is rejected", "why_tests_cant": "Where in the source the error is decides what has already been done; every position and every kind of effect has to be considered.", "anchors": ["crates/math-core/src/lib.rs: convert_with_global_state, convert_with_local_state, parse", "crates/math-core/src/parser.rs: Parser::parse", "crates/math-core/src/global_state.rs: GlobalState"]}
{"id": "C48", "title": "Options of the Python and JavaScript constructors", "statement": "What a user asks for when constructing a converter in Python or JavaScript is exactly what the library is configured with; what is not mentioned has the library's default. Invalid options are refused, with no object made. Objects made in the two languages with the same settings give the same answers to every sequence of calls.", "quantifier": "every combination of settings, valid or not; every sequence of method calls", "why_tests_cant": "Twelve options, two languages and two naming conventions: a swapped or forgotten option shows only for particular combinations of settings and sources.", "anchors": ["crates/math-core-python/src/lib.rs: LatexToMathML::new, dict_to_tuple_vec", "crates/math-core-wasm/src/lib.rs: MathCoreOptions, LatexToMathML::new", "crates/math-core/src/lib.rs: MathCoreConfig"]}
{"id": "C49", "title": "The command line does what its options say", "statement": "The CLI refuses exactly the command lines whose options do not fit together, missing or broken configuration files and invalid macros, each with its exit code and before anything is read, printed or written. Otherwise it converts exactly the formula or document which is named, with the delimiters which are given, and prints or stores the result as asked; a file is changed only if the options allow it (--write or --recursive, and no --dry-run), nothing is printed by a failing run, and the exit code tells what happened.", "quantifier": "every command line, every configuration file, every file system and standard input", "why_tests_cant": "The sixteen options have thousands of combinations; the promise that a file is not touched is about all of them, including every point at which the run can fail.", "anchors": ["crates/math-core-cli/src/main.rs: Args, main, convert_and_exit, read_stdin", "crates/math-core-cli/src/config_file.rs: load_config_file"]}
{"id": "C50", "title": "In recursive mode every file is converted on its own", "statement": "When a directory is converted, what becomes of an HTML file depends only on that file and the configuration, not on which other files are in the directory or in which order the operating system lists them.", "quantifier": "every directory tree, every order of its entries, every content of the files", "why_tests_cant": "The order of directory entries is not under the control of a test, and the effect of one file on another depends on the contents of both.", "anchors": ["crates/math-core-cli/src/main.rs: convert_html_recursive, convert_html, replace", "crates/math-core/src/lib.rs: convert_with_global_state"]}
{"id": "C51", "title": "Typed characters and named symbols are the symbols of unicode-math", "statement": "A formula may be written with the characters of Unicode themselves or with the commands of unicode-math for them: for every such symbol the output shows exactly the character which unicode-math shows (with `*` and `-` shown as the operators they stand for), in the order of the source, and between them are the spaces which TeX's table gives for the types (binary operator, relation, opening, ...) which unicode-math gives to the symbols.", "quantifier": "every sequence of symbols out of all code points of Unicode and all commands of unicode-math which the converter knows, every whitespace between them, every configuration and history, both display modes", "why_tests_cant": "There are more than a million code points; which table a code point is looked up in, and with which class, depends on arithmetic over code points, and the spaces depend on the neighbours.", "anchors": ["crates/math-core/src/commands.rs: get_operator_from_unicode, resolve_builtin_cmd", "crates/math-core/src/lexer.rs: next_token", "crates/math-core/src/token.rs: Token::class", "docs/unicode-math-table.html"]}
{"id": "C52", "title": "A symbol and the command for it are interchangeable", "statement": "Replacing a command for a symbol by the character which is shown for it (or the other way round) does not change the output apart from the copy of the source in it: same elements, attributes and spaces, same numbers and labels, or an error of the same kind. This holds at any depth of a formula.", "quantifier": "every formula, every choice of the symbols which are written as characters, every configuration and history", "why_tests_cant": "Commands and characters go through different tables with hundreds of entries each, and the effect of a symbol depends on the place where it stands (script, delimiter, argument, next to operators).", "anchors": ["crates/math-core/src/commands.rs: get_operator_from_unicode, resolve_builtin_cmd", "crates/math-core/src/lexer.rs: next_token", "crates/math-core/src/parser.rs: parse_token"]}
{"id": "C53", "title": "A formula of LaTeX is shown with the MathML for it", "statement": "Every formula which is built, to any depth, from symbols, numbers, function names, groups, fractions and binomials, roots, accents, braces with labels, stacked symbols, arrows with labels, phantoms, cancelled and boxed parts, delimiters of a given size and `\\left … \\middle … \\right`, spaces, letters and words in the mathematical alphabets, text, negated relations, changes of style and colour, matrices and arrays, with scripts, `\\limits` and primes, is accepted, and the output is one well-formed document in which every part has its element of MathML (`mfrac`, `msqrt`, `msubsup`, `munderover`, `mtable`, ...) with its own parts in the right places, and which shows exactly the symbols LaTeX shows. Whitespace between the parts makes no difference (between primes there is none, and in text it counts as one space). The same holds for the displays `equation`, `gather`, `align` and `multline` and their starred forms: beside each line there is the number or tag which LaTeX gives it (with `\\tag`, `\\tag*`, `\\nonumber`, `\\notag`), and afterwards the equation counter and the labels are those of LaTeX.", "quantifier": "every formula and display of LaTeX of this kind (over all symbols of unicode-math and the usual commands of LaTeX and amsmath), every way to write whitespace in it, every configuration and history in which its commands are not redefined, both display modes", "why_tests_cant": "Formulas can be nested to any depth and every construct can occur in every other; tests compare a few outputs, not the output with the meaning of LaTeX.", "anchors": ["crates/math-core/src/lib.rs: LatexToMathML", "crates/math-core/src/parser.rs: parse_token, parse_sequence", "crates/math-core/src/commands.rs", "crates/math-core/src/lexer.rs", "crates/mathml-renderer/src/ast.rs: emit"]}
{"id": "C54", "title": "A formula has the colour which LaTeX gives it", "statement": "`\\color` before a formula puts the whole formula into one element whose style declares the colour with the levels of red, green and blue which LaTeX gives it, however the colour is described: by a name of xcolor, by six hexadecimal digits (`[HTML]`), by three whole numbers up to 255 (`[RGB]`) or by three decimal numbers up to 1 (`[rgb]`, rounded to the nearest level). Different levels have different declarations. Every name of xcolor is accepted; an unknown name or colour model, a wrong number of digits, and numbers which are too few or not numbers are rejected with an error about them.", "quantifier": "every colour in each of the four notations, every formula of C53 after it, every way to write whitespace, every configuration and history in which the commands are not redefined, both display modes", "why_tests_cant": "There are 16 million colours and infinitely many ways to write the numbers; tests try a few, and rounding and digits can be wrong for others.", "anchors": ["crates/math-core/src/parser.rs: Token::Color", "crates/math-core/src/color_defs.rs: get_color", "crates/math-core/src/atof.rs: limited_float_parse", "crates/mathml-renderer/src/itoa.rs: append_u8_as_hex", "crates/mathml-renderer/src/attribute.rs: RowAttrs"]}
{"id": "C55", "title": "Commands which stand for several symbols show these symbols", "statement": "A formula in which commands such as `\\ldots`, `\\iff`, `\\implies`, `\\colonequals` or `\\minuscoloncolon` stand between parts is accepted as long as there are not more of them than the limit for expansions, whatever the parts are, and it shows the parts and between them exactly the symbols and spaces for which LaTeX's packages define the commands, in this order. `\\bra{…}`, `\\ket{…}` and `\\braket{…}` show the formula in their braces between their two signs; those of `\\Bra{…}` and `\\Ket{…}` are delimiters which are as high as it. The state of the converter is kept. With more such commands than the limit, it is rejected because of too many expansions.", "quantifier": "every sequence of formulas of C53 with any of the 30 commands, or of the five with an argument which is such a formula, between them, every way to write whitespace, every configuration and history in which the commands are not redefined and the limit is not exceeded, both display modes", "why_tests_cant": "These commands are expanded inside the parser, and what stands before and after the expansion is looked at in many places: numbers, scripts, classes for spacing. Tests try single commands between letters.", "anchors": ["crates/math-core/src/predefined.rs", "crates/math-core/src/commands.rs: COMMANDS", "crates/math-core/src/parser.rs: Token::CustomCmd", "crates/math-core/src/token_queue.rs"]}
{"id": "C56", "title": "Delimiters which do not match and missing arguments are rejected, with the right reason", "statement": "A source which begins like a formula of LaTeX and then, at any depth of braces, `\\left … \\right`, environments, arguments and scripts, continues with something that does not belong there is rejected, whatever comes after it. A `}`, `\\right` or `\\end` which closes nothing is reported as an unmatched closing token of this kind, an `\\end` with another name as the one of the `\\begin` is reported with both names, an end of the source while something is open is reported with what is missing, an `&` where there are no columns and a `$` are reported as such. A closing token or the end of the source in the place of the argument of a root, accent, brace, phantom, stroke, arrow, fraction, `\\overset` or script is reported as a missing argument, `^` or `_` directly followed by another one or by a prime and two scripts of the same kind are reported as such. The first such mistake decides.", "quantifier": "every formula of C53 before the mistake on every level, also after commands which are expanded (C55), every nesting of braces, fences with any delimiters, any of the twelve environments with any cells and rows before the mistake, arguments of roots, accents, braces, phantoms, strokes, arrows, fractions and binomials, first arguments of `\\overset` and `\\underset`, and scripts of every nucleus; every rest of C53 after the mistake, every way to write whitespace, every configuration and history in which the commands are not redefined, both display modes, with and without global state", "why_tests_cant": "The place of a mistake and the nesting around it are unbounded, and the parser decides with a different condition in each loop. Tests have a dozen short sources with mistakes.", "anchors": ["crates/math-core/src/parser.rs: parse_sequence, handle_tokens_without_output, parse_token, get_bounds, get_sub_or_sup", "crates/math-core/src/token.rs: EndToken::matches", "crates/math-core/src/error.rs: LatexErrKind"]}
{"id": "C57", "title": "The output contains exactly the characters of the formula, in their order", "statement": "If a formula of LaTeX is converted, then the text of the output, read from the beginning to the end without the markup, is the sequence of the characters of the formula: each letter, digit, symbol, function name and text in the place where LaTeX has it (the base before its scripts, a lower script before an upper one, the numerator before the denominator, the radicand before the index), and nothing is lost, repeated or added. With the annotation switched on, the source follows. The numbers beside the lines of a display are the subject of C20 and C53.", "quantifier": "every formula of C53, every chain of C55 up to the limit of expansions and every display of C53, every way to write whitespace, every configuration and history in which the commands are not redefined, both display modes", "why_tests_cant": "Formulas are unbounded in length and depth. A test compares the output of one formula; a character which is dropped or doubled only in some nesting is not seen.", "anchors": ["crates/math-core/src/lib.rs: LatexToMathML::convert_with_global_state", "crates/math-core/src/parser.rs: parse_sequence, parse_token", "crates/mathml-renderer/src/ast.rs: emit"]}

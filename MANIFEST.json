{
 "claims": [
  {
   "property": "C01",
   "status": "proved",
   "theorems": [
    "Verif.C01_annotated",
    "Verif.C01_error_body",
    "Verif.C01_annotation",
    "Verif.C01_content_escape",
    "Verif.C01_text_escape"
   ],
   "note": "Both escaping routines, the annotation of every document returned by any call (C01_annotated), the body of the HTML of an error (C01_error_body)."
  },
  {
   "property": "C02",
   "status": "proved",
   "theorems": [
    "Verif.C02_error_html",
    "Verif.C02_class_not_escaped"
   ],
   "note": ""
  },
  {
   "property": "C03",
   "status": "proved",
   "theorems": [
    "Verif.C03_link_iff",
    "Verif.C03_id_injective",
    "Verif.C03_fragment_safe"
   ],
   "note": ""
  },
  {
   "property": "C04",
   "status": "proved",
   "theorems": [
    "Verif.C04_terminates",
    "Verif.C04_complete",
    "Verif.C04_stays",
    "Verif.C04_covers"
   ],
   "note": ""
  },
  {
   "property": "C05",
   "status": "proved",
   "theorems": [
    "Verif.C05_same_tokens",
    "Verif.C05_comment",
    "Verif.C05_last_comment"
   ],
   "note": "Stated for whole token sequences including the error, if any; whitespace inside the name of an unknown environment does not count."
  },
  {
   "property": "C06",
   "status": "proved",
   "theorems": [
    "Verif.C06_whitespace",
    "Verif.C06_never_two"
   ],
   "note": ""
  },
  {
   "property": "C07",
   "status": "proved",
   "theorems": [
    "Verif.C07_column",
    "Verif.C07_column_total",
    "Verif.C07_utf16",
    "Verif.C07_lexer_error_inside",
    "Verif.C07_lexer_error_column"
   ],
   "note": "Tokeniser errors, the column computation and UTF-16 offsets; that the errors of all conversions (parser included) point to character boundaries of their own source is part of C42_every_call_returns."
  },
  {
   "property": "C08",
   "status": "proved",
   "theorems": [
    "Verif.C08_stream",
    "Verif.C08_fails",
    "Verif.C08_determined",
    "Verif.C08_transparent",
    "Verif.C08_peek_next",
    "Verif.C08_peekAny_nextAny",
    "Verif.C08_start"
   ],
   "note": "Against an abstract stream of the tokens still to come; errors of the tokeniser are part of the stream."
  },
  {
   "property": "C09",
   "status": "proved",
   "theorems": [
    "Verif.C09_order",
    "Verif.C09_other_names",
    "Verif.C09_defined"
   ],
   "note": "Layered lookup stated outright; definitions never change another name, at any unfolding depth, over all reachable sessions."
  },
  {
   "property": "C10",
   "status": "partial",
   "theorems": [
    "Verif.C10_definition_not_seen",
    "Verif.C10_redefinition_too_late",
    "Verif.C10_no_new_name_in_argument",
    "Verif.C10_definitions_partial",
    "Verif.C10_definitions_local_partial",
    "Verif.C10_rejected",
    "Verif.C10_rejected_local",
    "Verif.C10_guards",
    "Verif.C10_guard_errors",
    "Verif.C10_new_meaning",
    "Verif.C10_other_names",
    "Verif.C10_old_bodies",
    "Verif.C10_scope",
    "Verif.C10_written_out_partial"
   ],
   "note": "For definitions at the beginning of a source, with any history: C10_definitions_partial, C10_rejected (what a conversion gives), C10_guards, C10_guard_errors, C10_new_meaning, C10_other_names, C10_old_bodies, C10_scope (what a definition does to the names), C10_written_out_partial. The code violates the property for definitions in arguments of macros (C10_redefinition_too_late, C10_no_new_name_in_argument, C10_definition_not_seen); definitions between the parts of a formula are not covered."
  },
  {
   "property": "C11",
   "status": "proved",
   "theorems": [
    "Verif.C11_no_leak",
    "Verif.C11_persist",
    "Verif.C11_only_global",
    "Verif.C11_session",
    "Verif.C11_conversion"
   ],
   "note": "For whole conversions, successful or not, after any history: C11_conversion (a conversion amounts to lookups, expansions and definitions, and names without a global definition in it keep their meaning), C11_only_global and C11_session (without \\global, \\gdef and global_group nothing changes), C11_no_leak and C11_persist (what definitions do)."
  },
  {
   "property": "C12",
   "status": "proved",
   "theorems": [
    "Verif.C12_no_local_reference",
    "Verif.C12_self_contained"
   ],
   "note": "All reachable sessions; the fuel of the copy loop is proved sufficient."
  },
  {
   "property": "C13",
   "status": "proved",
   "theorems": [
    "Verif.C13_stable",
    "Verif.C13_in_bounds",
    "Verif.C13_let"
   ],
   "note": "All reachable sessions."
  },
  {
   "property": "C14",
   "status": "proved",
   "theorems": [
    "Verif.C14_expansion",
    "Verif.C14_expansion_builtin",
    "Verif.C14_arguments_unique",
    "Verif.C14_fails_only_without_arguments",
    "Verif.C14_succeeds_iff",
    "Verif.C14_builtin_params"
   ],
   "note": "For any state of the parser: a call is replaced by its body with the arguments in it (C14_expansion, C14_expansion_builtin), the arguments are determined (C14_arguments_unique), and the call succeeds exactly if they are there (C14_succeeds_iff). For whole sources see C44."
  },
  {
   "property": "C15",
   "status": "proved",
   "theorems": [
    "Verif.C15_limit"
   ],
   "note": "For every reachable state and every source there is a threshold (possibly infinite): below it the call fails with the corresponding error, from it on the result does not depend on the limit."
  },
  {
   "property": "C16",
   "status": "proved",
   "theorems": [
    "Verif.C16_error",
    "Verif.C16_iff",
    "Verif.C16_meaning",
    "Verif.C16_order",
    "Verif.C16_duplicate"
   ],
   "note": "C16_duplicate: with equal names the first macro silently wins."
  },
  {
   "property": "C17",
   "status": "proved",
   "theorems": [
    "Verif.C17_history_independent",
    "Verif.C17_no_influence",
    "Verif.C17_as_after_reset"
   ],
   "note": "For every bound on the recursion of the model."
  },
  {
   "property": "C18",
   "status": "proved",
   "theorems": [
    "Verif.C18_reset"
   ],
   "note": "For every bound on the recursion of the model."
  },
  {
   "property": "C19",
   "status": "proved",
   "theorems": [
    "Verif.C19_batch",
    "Verif.C19_as_session",
    "Verif.C19_length",
    "Verif.C19_each",
    "Verif.C19_like_global",
    "Verif.C19_rejected"
   ],
   "note": "C19_batch: one result per snippet, in order; the converter stays as it is; the numbers go on from snippet to snippet; references in any snippet show the tag of the row with the label in any snippet, also if other snippets fail. C19_each, C19_like_global, C19_as_session: a batch is like parsing the snippets one after the other."
  },
  {
   "property": "C20",
   "status": "partial",
   "theorems": [
    "Verif.C20_number_lost",
    "Verif.C20_suppressed_next_row",
    "Verif.C20_consecutive_partial",
    "Verif.C20_page_partial"
   ],
   "note": "C20_page_partial: the numbers of all rows of a source made of environments with ordinary rows, after any history. C20_consecutive_partial: every conversion of any source gives tags which follow on from the counter. The code violates the rest of the property: C20_number_lost, C20_suppressed_next_row."
  },
  {
   "property": "C21",
   "status": "partial",
   "theorems": [
    "Verif.C21_label_lost",
    "Verif.C21_page_partial"
   ],
   "note": "C21_page_partial: labels and tags of all rows of a source made of environments with ordinary rows, after any history. The code violates the property for labels in multline (C21_label_lost)."
  },
  {
   "property": "C22",
   "status": "partial",
   "theorems": [
    "Verif.C22_well_formed_partial",
    "Verif.C22_shape",
    "Verif.C22_operator_name_not_escaped",
    "Verif.C22_operator_name_breaks",
    "Verif.C22_unknown_command_breaks",
    "Verif.C22_label_ampersand",
    "Verif.C22_duplicate_attribute",
    "Verif.C22_duplicate_attribute_middle",
    "Verif.C22_markup_injection",
    "Verif.C22_markup_injection_closes",
    "Verif.C22_fraction_with_one_child",
    "Verif.C22_control_character",
    "Verif.C22_conversion_partial",
    "Verif.C22_formula_partial"
   ],
   "note": "C22_formula_partial: well-formed for every source of the grammar with separators in place and operator names without markup, after any history. C22_conversion_partial: for any source, unless the syntax tree has one of four known defects. The code violates the rest: there are sources for each of these defects, see Verif/Props/Findings.lean and Verif/Props/Emit.lean."
  },
  {
   "property": "C23",
   "status": "proved",
   "theorems": [
    "Verif.C23_layout_only",
    "Verif.C23_same_tree",
    "Verif.C23_sessions"
   ],
   "note": "For syntax trees, and for whole sessions of calls (C23_sessions)."
  },
  {
   "property": "C24",
   "status": "proved",
   "theorems": [
    "Verif.C24_undefined_references",
    "Verif.C24_unknown_commands",
    "Verif.C24_conversion"
   ],
   "note": "For syntax trees, and for conversions after any history (C24_conversion)."
  },
  {
   "property": "C25",
   "status": "partial",
   "theorems": [
    "Verif.C25_rows_and_cells",
    "Verif.C25_array_partial",
    "Verif.C25_table_partial",
    "Verif.C25_numbered_partial",
    "Verif.C25_cells",
    "Verif.C25_row_count",
    "Verif.C25_separator_lost_after_style",
    "Verif.C25_separator_lost_after_over",
    "Verif.C25_separator_lost_after_color",
    "Verif.C25_separator_lost_in_group",
    "Verif.C25_environment",
    "Verif.C25_written",
    "Verif.C25_lines"
   ],
   "note": "C20_page_partial together with C25_written: for every source which is made of environments with ordinary rows (grammar in Verif/Spec/Grammar.lean), after any history, the rows and cells of the output are those of the source (with array and its column specification). From the syntax tree on for every tree (C25_array_partial etc.). C25_lines: the lines of \\hline and \\hdashline are above the rows which they precede. The code violates the property for separators after \\displaystyle, \\color and \\over or in groups: C25_separator_lost_after_style, C25_separator_lost_after_color, C25_separator_lost_after_over, C25_separator_lost_in_group."
  },
  {
   "property": "C26",
   "status": "proved",
   "theorems": [
    "Verif.C26_columns",
    "Verif.C26_accepts"
   ],
   "note": ""
  },
  {
   "property": "C27",
   "status": "proved",
   "theorems": [
    "Verif.C27_number",
    "Verif.C27_length",
    "Verif.C27_units",
    "Verif.C27_unit_lengths",
    "Verif.C27_inch"
   ],
   "note": ""
  },
  {
   "property": "C28",
   "status": "proved",
   "theorems": [
    "Verif.C28_overlay",
    "Verif.C28_overlay_vs",
    "Verif.C28_commute",
    "Verif.C28_single"
   ],
   "note": ""
  },
  {
   "property": "C29",
   "status": "proved",
   "theorems": [
    "Verif.C29_unchanged",
    "Verif.C29_valid",
    "Verif.C29_injective",
    "Verif.C29_unassigned",
    "Verif.C29_composite"
   ],
   "note": "C29_unassigned records that the unassigned code point U+03A2 collides with U+03F4."
  },
  {
   "property": "C30",
   "status": "proved",
   "theorems": [
    "Verif.C30_continue",
    "Verif.C30_document",
    "Verif.C30_no_formulas",
    "Verif.C30_empty"
   ],
   "note": "C30_empty covers the empty document."
  },
  {
   "property": "C31",
   "status": "proved",
   "theorems": [
    "Verif.C31_windows",
    "Verif.C31_leftmost",
    "Verif.C31_not_escaped"
   ],
   "note": "memmem itself is trusted (leftmost occurrence)."
  },
  {
   "property": "C32",
   "status": "proved",
   "theorems": [
    "Verif.C32_decodes",
    "Verif.C32_behaviour",
    "Verif.C32_cases",
    "Verif.C32_raw_ampersand_blocks"
   ],
   "note": "C32_raw_ampersand_blocks records a limitation of the code."
  },
  {
   "property": "C33",
   "status": "proved",
   "theorems": [
    "Verif.C33_crash",
    "Verif.C33_outcome",
    "Verif.C33_unique",
    "Verif.C33_empty_opening",
    "Verif.C33_no_crash",
    "Verif.C33_line_column"
   ],
   "note": "C33_outcome with C33_unique; C33_no_crash needs that a rejected formula is rejected again. The code does not guarantee this: C33_crash is a document for which the CLI panics."
  },
  {
   "property": "C34",
   "status": "proved",
   "theorems": [
    "Verif.C34_contents",
    "Verif.C34_stop",
    "Verif.C34_complete",
    "Verif.C34_dry_run",
    "Verif.C34_failure",
    "Verif.C34_print"
   ],
   "note": "Files are written in place, not atomically: an example shows that a failing write loses the document."
  },
  {
   "property": "C35",
   "status": "proved",
   "theorems": [
    "Verif.C35_primes",
    "Verif.C35_at_most_one",
    "Verif.C35_scripts"
   ],
   "note": "Proved for every formula of the grammar of Verif/Spec/Grammar.lean (items with scripts inside groups, fractions, roots, accents, fences, environments): the primes shown are those written, in order; conversion succeeds exactly if no item has two subscripts or two superscripts, and each script is shown at its own item."
  },
  {
   "property": "C36",
   "status": "partial",
   "theorems": [
    "Verif.C36_batch_partial",
    "Verif.C36_nested_partial",
    "Verif.C36_source_partial",
    "Verif.C36_rejected",
    "Verif.C36_stray_brace",
    "Verif.C36_missing_brace"
   ],
   "note": "After any history, every successful conversion of one source, with macros and definitions (C36_nested_partial), and every successful snippet of a batch (C36_batch_partial); for sources without macros in terms of the tokens of the source (C36_source_partial, C36_rejected). The code violates the property for commands for text which follow each other without braces (C36_stray_brace, C36_missing_brace); everything else is covered."
  },
  {
   "property": "C37",
   "status": "partial",
   "theorems": [
    "Verif.C37_braces",
    "Verif.C37_relation_with_script",
    "Verif.C37_fence",
    "Verif.C37_overbrace",
    "Verif.C37_mathbin",
    "Verif.C37_overset",
    "Verif.C37_spacing_partial",
    "Verif.C37_spacing_in_style_partial",
    "Verif.C37_spacing_anywhere_partial",
    "Verif.C37_script_binary",
    "Verif.C37_inner_inner",
    "Verif.C37_inner_binary",
    "Verif.C37_formula_partial",
    "Verif.C37_formula_in_style_partial",
    "Verif.C37_formula_anywhere_partial"
   ],
   "note": "Proved for every formula of the grammar (in any style, and anywhere inside a formula) all of whose parts have a type of TeX's (tokens, numbers, groups, fractions, roots, accents, fonts, text, \\bigl and so on, \\mathrel and so on, operators with limits, \\genfrac, \\overset and \\underset, arrows with labels, \\cramped; with scripts) and where the converter sees the class of the next atom: every space is TeX's, except for the three pairs of neighbours listed at Spec.differs, where the claim is false of the code (C37_script_binary, C37_inner_inner, C37_inner_binary). C37_braces, C37_relation_with_script, C37_fence, C37_overbrace, C37_mathbin and C37_overset are counterexamples for other parts. The natural spacing of operators (MathML's operator dictionary) and embellished operators are part of the specification."
  },
  {
   "property": "C38",
   "status": "proved",
   "theorems": [
    "Verif.C38_serialisable",
    "Verif.C38_sequential",
    "Verif.C38_converter",
    "Verif.C38_progress",
    "Verif.C38_readers",
    "Verif.C38_exclusive"
   ],
   "note": "The lock is modelled as std's RwLock: one writer or many readers, poisoned by a panic of a writer. Threads interleave at acquire, read, write-back and return. C38_progress: no deadlock."
  },
  {
   "property": "C39",
   "status": "proved",
   "theorems": [
    "Verif.C39_group",
    "Verif.C39_unique",
    "Verif.C39_unclosed_none",
    "Verif.C39_unknown_none",
    "Verif.C39_iff",
    "Verif.C39_body"
   ],
   "note": "C39_body is the variant for macro bodies."
  },
  {
   "property": "C40",
   "status": "partial",
   "theorems": [
    "Verif.C40_fraktur_I_converted",
    "Verif.C40_unicode_partial",
    "Verif.C40_fraktur_I"
   ],
   "note": "The code violates the property for \\mathfrak{I} (C40_fraktur_I, C40_fraktur_I_converted); the partial theorem covers all other cases."
  },
  {
   "property": "C41",
   "status": "proved",
   "theorems": [
    "Verif.C41_python_one",
    "Verif.C41_python_one_global",
    "Verif.C41_python_batch_continues",
    "Verif.C41_python_batch_raises",
    "Verif.C41_js_batch_continues",
    "Verif.C41_js_batch_throws",
    "Verif.C41_same_state"
   ],
   "note": "The texts of messages and reports are parameters."
  },
  {
   "property": "C42",
   "status": "proved",
   "theorems": [
    "Verif.C42_every_call_returns"
   ],
   "note": "Termination and absence of panics of the modelled code in release mode (debug assertions and stack depth are not modelled). Running out of steps is a separate outcome in the model, shown not to occur with enough steps."
  },
  {
   "property": "C43",
   "status": "partial",
   "theorems": [
    "Verif.C43_no_internal_error_partial",
    "Verif.C43_internal_error_set",
    "Verif.C43_internal_error_braket",
    "Verif.C43_internal_error_definition",
    "Verif.C43_internal_error_definition_strict"
   ],
   "note": "The code violates the property: counterexamples with \\set, \\Set, \\Braket, and with definitions in arguments of macros. C43_no_internal_error_partial: without \\set, \\Set, \\Braket, \\newcommand and \\providecommand there is no internal error, whatever is converted."
  },
  {
   "property": "C44",
   "status": "partial",
   "theorems": [
    "Verif.C44_written_out_partial",
    "Verif.C44_written_out_local_partial",
    "Verif.C44_class_of_argument",
    "Verif.C44_class_of_macro",
    "Verif.C44_class_of_redefined",
    "Verif.C44_digits"
   ],
   "note": "Proved for formulas of the grammar with calls, nested calls and empty bodies, after any history (C44_written_out_partial), as long as a call after an operator has the class of what it stands for and digits are not joined. The code violates the rest: C44_class_of_argument, C44_class_of_macro, C44_class_of_redefined, C44_digits."
  },
  {
   "property": "C45",
   "status": "partial",
   "theorems": [
    "Verif.C45_bar_in_braket",
    "Verif.C45_bar_after_inner_braket",
    "Verif.C45_shape_partial",
    "Verif.C45_everywhere_partial"
   ],
   "note": "C45_shape_partial: for every source of the grammar (without a line break in `equation`), after any history, the elements of the output, apart from attributes and the numbers of equations, are those which Verif/Spec/Shape.lean gives by recursion over the formula. C45_everywhere_partial: the same elements in any two converters, modes and histories. Missing: sources outside the grammar. (For the numbers see C25.)"
  },
  {
   "property": "C46",
   "status": "partial",
   "theorems": [
    "Verif.C46_output_grows",
    "Verif.C46_one_expansion_partial"
   ],
   "note": "The code violates the property: C46_output_grows proves that for every n below the limit a source of length 2n + 26 gives 2^(n+1) letters. C46_one_expansion_partial: a single expansion multiplies at most the size of the body with the size of the arguments. There is no useful bound for all expansions of a source together."
  },
  {
   "property": "C47",
   "status": "partial",
   "theorems": [
    "Verif.C47_definition_stays",
    "Verif.C47_definition_stays",
    "Verif.C47_number_and_label_stay",
    "Verif.C47_nothing_lost_partial",
    "Verif.C47_local"
   ],
   "note": "The code violates the property for conversions with global state (C47_definition_stays, C47_number_and_label_stay). C47_local: it holds for conversions with local state and batches. C47_nothing_lost_partial: with global state, after success or failure, the configuration is kept, numbers are not used twice, labels are not forgotten and names which are not defined globally keep their meaning."
  },
  {
   "property": "C48",
   "status": "proved",
   "theorems": [
    "Verif.C48_python",
    "Verif.C48_javascript",
    "Verif.C48_python_rejects",
    "Verif.C48_javascript_rejects",
    "Verif.C48_same"
   ],
   "note": "C48_python and C48_javascript: the settings reach the library; C48_python_rejects and C48_javascript_rejects: exactly the valid options are accepted; C48_same: objects made from the same settings agree on every sequence of calls, or fail because of the same macro. The conversion of Python and JavaScript values to the declared Rust types is external code."
  },
  {
   "property": "C49",
   "status": "partial",
   "theorems": [
    "Verif.C49_accepted",
    "Verif.C49_refused",
    "Verif.C49_formula",
    "Verif.C49_page",
    "Verif.C49_file",
    "Verif.C49_recursive",
    "Verif.C49_untouched",
    "Verif.C49_silent",
    "Verif.C49_codes",
    "Verif.C49_dry_run_prints",
    "Verif.C49_recursive_alone",
    "Verif.C49_delimiters_ignored"
   ],
   "note": "C49_accepted, C49_refused, C49_formula, C49_page, C49_file, C49_recursive, C49_untouched, C49_silent and C49_codes are the property, for every command line. Three details of it are violated by the code: a dry run prints a document from standard input (C49_dry_run_prints), --recursive without a path is accepted and ignored (C49_recursive_alone), and so are --inline-open and --block-open with a formula (C49_delimiters_ignored). clap and the TOML reader are external code."
  },
  {
   "property": "C50",
   "status": "partial",
   "theorems": [
    "Verif.C50_numbers",
    "Verif.C50_definitions",
    "Verif.C50_alone_partial"
   ],
   "note": "The code violates the property (C50_numbers, C50_definitions): one converter with global state is used for all files. C50_alone_partial: it holds if the documents leave the state of the converter as it was."
  },
  {
   "property": "C51",
   "status": "partial",
   "theorems": [
    "Verif.C51_shown_partial",
    "Verif.C51_spaces_partial",
    "Verif.C51_any_character_partial",
    "Verif.C51_middle_dot",
    "Verif.C51_triangle",
    "Verif.C51_other_symbol"
   ],
   "note": "Proved for all code points and all commands of unicode-math which the converter knows, except for the characters and commands listed at Spec.oddChars and Spec.oddNames, where the claim is false of the code (C51_middle_dot, C51_triangle, C51_other_symbol). The spaces are proved where C37 is. Digits which follow each other are numbers (C45) and not in the statement."
  },
  {
   "property": "C52",
   "status": "partial",
   "theorems": [
    "Verif.C52_alike",
    "Verif.C52_swapped_partial",
    "Verif.C52_therefore",
    "Verif.C52_gamma"
   ],
   "note": "C52_alike: for every two formulas of the grammar which differ in how symbols are written. C52_swapped_partial: for every source which consists of symbols, with the commands listed at Spec.oddCommands excluded, where the claim is false of the code (C52_therefore)."
  },
  {
   "property": "C53",
   "status": "partial",
   "theorems": [
    "Verif.C53_common_output",
    "Verif.C53_latex_partial",
    "Verif.C53_display_partial",
    "Verif.C53_display_written",
    "Verif.C53_det",
    "Verif.C53_colon",
    "Verif.C53_left_less",
    "Verif.C53_row_space",
    "Verif.C53_font_next_cell",
    "Verif.C53_style_over",
    "Verif.C53_root_style",
    "Verif.C53_color_digits",
    "Verif.C53_genfrac_style",
    "Verif.C53_mathchoice",
    "Verif.C53_mod",
    "Verif.C53_sideset",
    "Verif.C53_written",
    "Verif.C53_batch_partial",
    "Verif.C53_display_batch_partial",
    "Verif.C53_latex_local_partial",
    "Verif.C53_display_local_partial"
   ],
   "note": "Proved for formulas of LaTeX given by a syntax of their own (Spec/Tex, Spec/Latex), for every nesting and every whitespace, and for displays with numbers, tags and labels (Spec/Display). Missing: constructs which are not in that syntax (lines in tables, displays with other formulas around them, ...), the attributes, and the commands which the code shows differently (C53_det, C53_colon, C53_left_less, C53_row_space, C53_font_next_cell, C53_style_over, C53_root_style, C53_color_digits, C53_genfrac_style). The same without global state (C53_latex_local_partial, C53_display_local_partial) and for a formula in a batch, whatever the other snippets are (C53_batch_partial, C53_display_batch_partial)."
  },
  {
   "property": "C54",
   "status": "partial",
   "theorems": [
    "Verif.C54_color_partial",
    "Verif.C54_rejected",
    "Verif.C54_names",
    "Verif.C54_css_injective",
    "Verif.C54_odd_colours",
    "Verif.C54_too_large",
    "Verif.C54_batch_partial",
    "Verif.C54_rejected_batch",
    "Verif.C54_color_local_partial",
    "Verif.C54_rejected_local"
   ],
   "note": "Proved for all four notations, every formula of C53 and after any history: C54_color_partial (accepted, with exactly this colour), C54_css_injective, C54_names, C54_rejected. Missing: the levels of mixtures of inks (dvipsnames, not defined by xcolor) and nine base names for which the code has other levels than xcolor (C54_odd_colours). Numbers which are too large or too many are cut off (C54_too_large), invalid digits mean 0 (C53_color_digits). The same without global state."
  },
  {
   "property": "C55",
   "status": "partial",
   "theorems": [
    "Verif.C55_compound_partial",
    "Verif.C55_written",
    "Verif.C55_substitution",
    "Verif.C55_limit",
    "Verif.C55_argument",
    "Verif.C55_dots",
    "Verif.C55_accepted_iff",
    "Verif.C55_batch_partial",
    "Verif.C55_too_many_batch",
    "Verif.C55_compound_local_partial",
    "Verif.C55_too_many",
    "Verif.C55_too_many_local"
   ],
   "note": "Formulas of C53 with 30 compound commands, and with \\bra, \\ket, \\braket, \\Bra and \\Ket around formulas, between them, up to the limit for expansions: accepted, shown as the symbols of the commands; above the limit, rejected as too many expansions (C55_too_many). As an argument such a command is only its first symbol (C55_argument). Missing: such commands inside the parts of formulas, and scripts on them. The nine commands with a Unicode character of their own depend on a setting (C55_substitution). The same without global state and in batches. Accepted just if the limit is kept (C55_accepted_iff)."
  },
  {
   "property": "C56",
   "status": "proved",
   "theorems": [
    "Verif.C56_rejected",
    "Verif.C56_rejected_local",
    "Verif.C56_no_formula",
    "Verif.C56_no_display",
    "Verif.C56_common_reason",
    "Verif.C56_rejected_batch",
    "Verif.C56_after_commands_batch",
    "Verif.C56_after_commands",
    "Verif.C56_after_commands_local",
    "Verif.C56_written",
    "Verif.C56_written_after"
   ],
   "note": "Formulas of C53 up to the mistake on every level; any nesting of braces, fences, environments of C53 with cells and rows before the mistake, arguments of roots, accents, braces, phantoms, strokes, arrows and fractions, the first argument of \\overset and \\underset, and scripts; any rest of C53; also after commands of C55. There is a source for every such formula (C56_written). Optional arguments and text are not in the syntax as places for a mistake. With global state, without it, and in batches (C56_rejected_batch). No source is both such a formula and one of C53 (C56_no_formula, C56_no_display)."
  },
  {
   "property": "C57",
   "status": "partial",
   "theorems": [
    "Verif.C57_same_characters",
    "Verif.C57_characters_partial",
    "Verif.C57_compound_partial",
    "Verif.C57_display_partial"
   ],
   "note": "Proved for the formulas and displays of C53 and the chains of C55, after any history, with what is missing there. The order of the characters is that of the trees of Spec/Tex. Two readings of a source have the same characters (C57_same_characters)."
  }
 ]
}
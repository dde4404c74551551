{"claims": [
  {"property": "C01", "status": "proved", "theorems": ["Verif.Props.C01_positional"], "note": ""},
  {"property": "C02", "status": "proved", "theorems": ["Verif.Props.C02_named"], "note": ""},
  {"property": "C03", "status": "proved", "theorems": ["Verif.Props.C03_renderings_agree"], "note": ""},
  {"property": "C04", "status": "proved", "theorems": ["Verif.Props.C04_values_do_not_matter", "Verif.Props.C04_substitution"], "note": ""},
  {"property": "C05", "status": "proved", "theorems": ["Verif.Props.C05_nil_is_null", "Verif.Props.C05_nil_is_null_named"], "note": ""},
  {"property": "C06", "status": "partial", "theorems": ["Verif.Props.C06_scanner_partial", "Verif.Props.C06_exact", "Verif.Props.C06_hidden", "Verif.Props.C06_expression", "Verif.Props.C06_false", "Verif.Props.C06_comment"], "note": "Proved for every statement with quote-free names and self-contained raw fragments (operators and join types included) whose sub-selects carry no comment and whose own comment is on one line, with and without backslash escapes, and for expressions. False for comments of sub-selects (C06_false: the comment hides the placeholder). C06_exact: with comments anywhere, what comes before the first comment is read in full and the scanner reads all the rest inside of a comment; C06_hidden: on one line, exactly the placeholders before the first comment are seen, and C06 holds iff no parenthesis is open there and no argument follows. C06_comment: for a comment with a line break, exactly the placeholders of the arguments and then those of the rest of the comment."},
  {"property": "C07", "status": "partial", "theorems": ["Verif.Props.C07_closed_partial", "Verif.Props.C07_exact", "Verif.Props.C07_expression", "Verif.Props.C07_false"], "note": "Proved for Query, NamedQuery and String under the conditions of C06 (for String the values must be printable: strings without quote or backslash escapes on, runtime-printed values self-contained). False for comments of sub-selects (C07_false); C07_exact: on one line, a text with comments is closed iff no parenthesis is open where its first comment begins."},
  {"property": "C08", "status": "proved", "theorems": ["Verif.Props.C08_ordinary_names", "Verif.Props.C08_single_name"], "note": ""},
  {"property": "C09", "status": "partial", "theorems": ["Verif.Props.C09_false", "Verif.Props.C09_partial", "Verif.Props.C09_dotted_partial", "Verif.Props.C09_dotted_exact"], "note": "False of the code: a double quote in a name is escaped as in Go, which ends the identifier in PostgreSQL. Proved: exact characterisation of the names for which quoting works."},
  {"property": "C10", "status": "proved", "theorems": ["Verif.Props.C10_string_literal", "Verif.Props.C10_injective"], "note": ""},
  {"property": "C11", "status": "partial", "theorems": ["Verif.Props.C11_false", "Verif.Props.C11_partial", "Verif.Props.C11_exact", "Verif.Props.C11_injection"], "note": "False of the code: a single quote is escaped with a backslash. Proved: exact characterisation of the strings for which the literal is right; where the literal ends otherwise; for every SQL text without quotes, backslashes and line breaks there is a value that smuggles it into the text of String()."},
  {"property": "C12", "status": "proved", "theorems": ["Verif.Props.C12_signed", "Verif.Props.C12_unsigned", "Verif.Props.C12_bool", "Verif.Props.C12_limit_offset"], "note": ""},
  {"property": "C13", "status": "proved", "theorems": ["Verif.Props.C13_bytes"], "note": ""},
  {"property": "C14", "status": "proved", "theorems": ["Verif.Props.C14_time", "Verif.Props.C14_any", "Verif.Props.C14_range"], "note": "C14_any covers instants of every year, C14_range says that the year has four digits just for the years 0 to 9999."},
  {"property": "C15", "status": "proved", "theorems": ["Verif.Props.C15_string", "Verif.Props.C15_failure", "Verif.Props.C15_arguments"], "note": ""},
  {"property": "C16", "status": "proved", "theorems": ["Verif.Props.C16_select", "Verif.Props.C16_update", "Verif.Props.C16_delete", "Verif.Props.C16_having", "Verif.Props.C16_having_first"], "note": "Builder without condition; a sub-select used as condition is put between parentheses (operandOf)."},
  {"property": "C17", "status": "partial", "theorems": ["Verif.Props.C17_select_partial", "Verif.Props.C17_update_partial", "Verif.Props.C17_delete_partial", "Verif.Props.C17_false", "Verif.Props.C17_false_replaced", "Verif.Props.C17_select_exact", "Verif.Props.C17_update_exact", "Verif.Props.C17_delete_exact", "Verif.Props.C17_select_accepted", "Verif.Props.C17_update_accepted", "Verif.Props.C17_delete_accepted"], "note": "False in general: an empty condition removes the whole clause. Holds when no condition given is empty. For all calls, the _exact theorems say what is rendered: the text without conditions followed by a clause of exactly the conditions after the last empty one."},
  {"property": "C18", "status": "proved", "theorems": ["Verif.Props.C18_reads_back", "Verif.Props.C18_injective"], "note": "Trees of comparisons of dotted names with accepted values (also nil), composed by And/Or of comparisons, loukoum.And/Or, and builder methods."},
  {"property": "C19", "status": "proved", "theorems": ["Verif.Props.C19_identifier", "Verif.Props.C19_operands", "Verif.Props.C19_arguments", "Verif.Props.C19_isNull", "Verif.Props.C19_operators_differ"], "note": "plain values with Query/NamedQuery; any operand with String; identifiers, values and calls"},
  {"property": "C20", "status": "partial", "theorems": ["Verif.Props.C20_partial", "Verif.Props.C20_exact", "Verif.Props.C20_in_others", "Verif.Props.C20_between", "Verif.Props.C20_condition", "Verif.Props.C20_exists", "Verif.Props.C20_in", "Verif.Props.C20_set", "Verif.Props.C20_unprotected", "Verif.Props.C20_false"], "note": "False in general: Like, NotLike, ILike, NotILike, Is, IsNot, IsDistinctFrom, IsNotDistinctFrom write a sub-select without parentheses (C20_false, C20_unprotected). Proved for the other nine comparison methods (C20_partial), WHERE/AND/OR, EXISTS, IN and SET. C20_exact: among the comparison methods exactly those eight write it bare; C20_in_others, C20_between: a sub-select among other elements of IN, and the bounds of BETWEEN, are bare."},
  {"property": "C21", "status": "proved", "theorems": ["Verif.Props.C21_elements", "Verif.Props.C21_values", "Verif.Props.C21_single", "Verif.Props.C21_slices"], "note": "a single nil argument stands for no element"},
  {"property": "C22", "status": "proved", "theorems": ["Verif.Props.C22_bounds", "Verif.Props.C22_values"], "note": ""},
  {"property": "C23", "status": "partial", "theorems": ["Verif.Props.C23_select_partial", "Verif.Props.C23_select_first_partial", "Verif.Props.C23_insert", "Verif.Props.C23_insert_first", "Verif.Props.C23_update", "Verif.Props.C23_update_first", "Verif.Props.C23_delete", "Verif.Props.C23_delete_first", "Verif.Props.C23_select_frame", "Verif.Props.C23_insert_frame", "Verif.Props.C23_update_frame", "Verif.Props.C23_delete_frame", "Verif.Props.C23_select_exact", "Verif.Props.C23_distinctOn_false", "Verif.Props.C23_prefix_false", "Verif.Props.C23_suffix_false"], "note": "Proved for INSERT, UPDATE, DELETE and for SELECT except DistinctOn, Prefix and Suffix, whose guards test another clause; for these three the negation is proved."},
  {"property": "C24", "status": "partial", "theorems": ["Verif.Props.C24_select_partial", "Verif.Props.C24_select_false", "Verif.Props.C24_select_agree", "Verif.Props.C24_select_exact", "Verif.Props.C24_insert", "Verif.Props.C24_update", "Verif.Props.C24_delete"], "note": "Full for INSERT, UPDATE and DELETE. For SELECT false (C24_select_false), because DistinctOn tests GROUP BY and Prefix/Suffix test OFFSET; C24_select_partial asks that the order of these calls is kept too. C24_select_agree: two orders that are both accepted always give the same builder. C24_select_exact: the exact condition on the other order, and it panics otherwise."},
  {"property": "C25", "status": "proved", "theorems": ["Verif.Props.C25_select", "Verif.Props.C25_insert", "Verif.Props.C25_update", "Verif.Props.C25_delete"], "note": "Every text of String() is exactly the present clauses in SQL order, single spaces, then the comment; each clause is its keyword and the texts of its elements. Query/NamedQuery agree by C03."},
  {"property": "C26", "status": "proved", "theorems": ["Verif.Props.C26_limit", "Verif.Props.C26_offset", "Verif.Props.C26_limit_text", "Verif.Props.C26_offset_text", "Verif.Props.C26_limit_object", "Verif.Props.C26_offset_object"], "note": "Exact acceptance condition and the inserted text. C26_limit_value_unchecked records the case outside the property: a value that already is a stmt.Limit is not checked."},
  {"property": "C27", "status": "proved", "theorems": ["Verif.Props.C27_exact", "Verif.Props.C27_refused"], "note": "Exact characterisation of the conversion; uint is not an accepted type."},
  {"property": "C28", "status": "proved", "theorems": ["Verif.Props.C28_columns", "Verif.Props.C28_slice", "Verif.Props.C28_strings", "Verif.Props.C28_blank", "Verif.Props.C28_never_empty", "Verif.Props.C28_groupBy", "Verif.Props.C28_insert", "Verif.Props.C28_distinctOn"], "note": "Conversion and API methods using it."},
  {"property": "C29", "status": "proved", "theorems": ["Verif.Props.C29_expressions", "Verif.Props.C29_nothing_dropped", "Verif.Props.C29_slices", "Verif.Props.C29_strings", "Verif.Props.C29_select", "Verif.Props.C29_columns", "Verif.Props.C29_returning", "Verif.Props.C29_select_nothing"], "note": "A single []string argument is taken verbatim (neither split nor trimmed), see C29_strings."},
  {"property": "C30", "status": "proved", "theorems": ["Verif.Props.C30_select", "Verif.Props.C30_update_delete", "Verif.Props.C30_text", "Verif.Props.C30_from_value", "Verif.Props.C30_delete_using", "Verif.Props.C30_text_others"], "note": "For stmt.From values the code loses the table; C30_from_value shows the query is then refused."},
  {"property": "C31", "status": "proved", "theorems": ["Verif.Props.C31_update", "Verif.Props.C31_accepted", "Verif.Props.C31_doUpdate"], "note": "UPDATE through any sequence of calls, and ON CONFLICT DO UPDATE; INSERT is C34."},
  {"property": "C32", "status": "partial", "theorems": ["Verif.Props.C32_sorted", "Verif.Props.C32_update_partial", "Verif.Props.C32_insert_partial", "Verif.Props.C32_doUpdate_partial", "Verif.Props.C32_false", "Verif.Props.C32_alias_false", "Verif.Props.C32_exact"], "note": "False when two keys of a map name the same column after trimming (C32_false). Proved for maps whose keys name different columns without alias, for every sort meeting the contract of sort.Slice; sortedness proved in general. C32_exact: for one map of columns without alias, the text is the same for all iteration orders if and only if keys naming the same column have values of the same text."},
  {"property": "C33", "status": "proved", "theorems": ["Verif.Props.C33_either", "Verif.Props.C33_exclusive", "Verif.Props.C33_pairs_then_columns", "Verif.Props.C33_columns_then_pairs", "Verif.Props.C33_using", "Verif.Props.C33_columns_text", "Verif.Props.C33_insert", "Verif.Props.C33_doUpdate"], "note": "The text of the key-value syntax is C31_update."},
  {"property": "C34", "status": "proved", "theorems": ["Verif.Props.C34_insert", "Verif.Props.C34_accepted"], "note": ""},
  {"property": "C35", "status": "partial", "theorems": ["Verif.Props.C35_rows_partial", "Verif.Props.C35_cells", "Verif.Props.C35_slice", "Verif.Props.C35_accepted", "Verif.Props.C35_extra_ignored", "Verif.Props.C35_none", "Verif.Props.C35_false", "Verif.Props.C35_exact", "Verif.Props.C35_exact_accepted"], "note": "False for a row that is a single nil or a single slice (C35_false): the cell is lost or spread. Proved for all other tables, for cells given one by one, and for a single slice. C35_exact and C35_exact_accepted say for every table which cells come out and when it is refused."},
  {"property": "C36", "status": "partial", "theorems": ["Verif.Props.C36_accepted", "Verif.Props.C36_nothing", "Verif.Props.C36_update_partial", "Verif.Props.C36_rest_ignored", "Verif.Props.C36_empty_update_false", "Verif.Props.C36_empty_update", "Verif.Props.C36_left_over", "Verif.Props.C36_accepted_exact"], "note": "False for DoUpdate without pairs: the clause disappears (C36_empty_update_false). Proved otherwise; acceptance exactly; C36_empty_update: DoUpdate without pairs changes nothing in the text; C36_left_over: but its targets stay, and the next clause names them too; C36_accepted_exact: what the call accepts and leaves on every INSERT."},
  {"property": "C37", "status": "proved", "theorems": ["Verif.Props.C37_select", "Verif.Props.C37_insert", "Verif.Props.C37_update_table", "Verif.Props.C37_update_set", "Verif.Props.C37_delete", "Verif.Props.C37_select_complete", "Verif.Props.C37_insert_complete", "Verif.Props.C37_update_complete", "Verif.Props.C37_delete_complete", "Verif.Props.C37_delete_blank"], "note": "All three renderings refuse; conversely a complete statement whose parts render is rendered. Delete(\"\") is not refused: it has a table with an empty name (C37_delete_blank)."},
  {"property": "C38", "status": "proved", "theorems": ["Verif.Props.C38_total", "Verif.Props.C38_lossless", "Verif.Props.C38_nonempty", "Verif.Props.C38_nul", "Verif.Props.C38_transcript"], "note": ""},
  {"property": "C39", "status": "proved", "theorems": ["Verif.Props.C39_blanks", "Verif.Props.C39_around_symbol", "Verif.Props.C39_ends"], "note": ""},
  {"property": "C40", "status": "proved", "theorems": ["Verif.Props.C40_words", "Verif.Props.C40_case"], "note": ""},
  {"property": "C41", "status": "proved", "theorems": ["Verif.Props.C41_well_formed", "Verif.Props.C41_nothing_lost", "Verif.Props.C41_constructors", "Verif.Props.C41_transcript"], "note": ""},
  {"property": "C42", "status": "partial", "theorems": ["Verif.Props.C42_rendered", "Verif.Props.C42_partial", "Verif.Props.C42_criterion", "Verif.Props.C42_false"], "note": "False of the code when an AND follows an OR: the condition is grouped from the left. Proved: how the condition is rendered and reads back, and that it has the SQL meaning exactly when no AND follows an OR."},
  {"property": "C43", "status": "partial", "theorems": ["Verif.Props.C43_partial", "Verif.Props.C43_exact", "Verif.Props.C43_false"], "note": "False of the code: a text ending in AND or OR and a name makes the parser read past its tokens. Proved: exactly which texts crash it (C43_exact)."},
  {"property": "C44", "status": "partial", "theorems": ["Verif.Props.C44_partial", "Verif.Props.C44_every_text", "Verif.Props.C44_exact", "Verif.Props.C44_false"], "note": "False of the code: what follows a parenthesised condition is dropped. Proved: for every text, exactly what is accepted, refused and ignored (C44_every_text, C44_exact); the condition is made of comparisons of the text, in order; well-formed texts keep all (C41)."},
  {"property": "C45", "status": "partial", "theorems": ["Verif.Props.C45_select_partial", "Verif.Props.C45_select_values", "Verif.Props.C45_update_partial", "Verif.Props.C45_update_others", "Verif.Props.C45_insert_partial", "Verif.Props.C45_select_false", "Verif.Props.C45_update_false", "Verif.Props.C45_render_false", "Verif.Props.C45_insert_false", "Verif.Props.C45_select_exact", "Verif.Props.C45_insert_exact", "Verif.Props.C45_update_exact", "Verif.Props.C45_update_changes", "Verif.Props.C45_update_call", "Verif.Props.C45_update_render", "Verif.Props.C45_select_call", "Verif.Props.C45_insert_call", "Verif.Props.C45_insert_render"], "note": "False of the code; refuted with concrete programs (shared array behind append, shared map, in-place sort when rendering). Proved for every program, every interleaving and every capacity policy: SELECT builders never change if no clause is extended twice; UPDATE builders keep their renderings until their SET clause is extended; INSERT builders always, given that no DO UPDATE is without assignments. DELETE builders share no written memory. Exactly, in every program: C45_select_exact and C45_insert_exact say which builders a call changes (those of the same array that hold something else in the cells written), C45_update_exact and C45_update_changes what Set does to the builder it is called on, and C45_select_call, C45_insert_call, C45_update_call, C45_insert_render and C45_update_render what every builder is after any call (also one that panics half way) or rendering."},
  {"property": "C46", "status": "proved", "theorems": ["Verif.Props.C46_select", "Verif.Props.C46_update", "Verif.Props.C46_insert", "Verif.Props.C46_select_chain", "Verif.Props.C46_update_chain", "Verif.Props.C46_insert_chain"], "note": "Every linear program, with renderings anywhere and every capacity policy: builders on shared memory are those of the program on values (UPDATE: those not used further, up to the order of columns in memory when rendered in between). C49 says what the calls accumulate on values."},
  {"property": "C47", "status": "partial", "theorems": ["Verif.Props.C47_select", "Verif.Props.C47_update_partial", "Verif.Props.C47_update_repeat", "Verif.Props.C47_insert_partial", "Verif.Props.C47_update_exact", "Verif.Props.C47_insert_exact", "Verif.Props.C47_false", "Verif.Props.C47_insert_false"], "note": "False if aliases of SET columns contradict the order of their names (witness: two columns exchange places with every rendering). Proved: SELECT always; one UPDATE rendered any number of times from any memory; any sequence of renderings of any builders in programs that extend no clause twice; INSERT in every program. C47_update_exact and C47_insert_exact: a builder renders as before with every sort that Go may have exactly if its aliases do not contradict the names."},
  {"property": "C48", "status": "partial", "theorems": ["Verif.Props.C48_appended", "Verif.Props.C48_invisible_partial", "Verif.Props.C48_false", "Verif.Props.C48_exact", "Verif.Props.C48_invisible_iff"], "note": "The comment is only appended (all statements, three renderings). A comment-skipping reader sees the query without it for one-line comments; false for comments with a line break (C48_false). C48_exact says for every comment what such a reader sees; C48_invisible_iff: the comment is invisible exactly when it is on one line."},
  {"property": "C49", "status": "proved", "theorems": ["Verif.Props.C49_select", "Verif.Props.C49_update", "Verif.Props.C49_update_text", "Verif.Props.C49_text"], "note": "An order without expression or a common table expression without name or query is listed as an empty element."},
  {"property": "C50", "status": "proved", "theorems": ["Verif.Props.C50_precedence", "Verif.Props.C50_builder", "Verif.Props.C50_builder_query", "Verif.Props.C50_given", "Verif.Props.C50_given_query"], "note": "Exact characterisation of NewExpression; objects that embed Select, Exists or NotExists are identified with them."},
  {"property": "C51", "status": "proved", "theorems": ["Verif.Props.C51_embedding"], "note": ""},
  {"property": "C52", "status": "partial", "theorems": ["Verif.Props.C52_join", "Verif.Props.C52_on_partial", "Verif.Props.C52_type", "Verif.Props.C52_string_partial", "Verif.Props.C52_false", "Verif.Props.C52_text_accepted", "Verif.Props.C52_text_exact"], "note": "False for a condition given as a text naming another type (C52_false). C52_join is the exact reading of the arguments; text-level statements for On clauses, explicit types and texts without a type. C52_text_accepted and C52_text_exact say for every text given as a condition whether the call is accepted and which join is rendered."},
  {"property": "C53", "status": "proved", "theorems": ["Verif.Props.C53_values", "Verif.Props.C53_named"], "note": "Condition TameStmt/TameVal as in the property. The tokenizer is Spec.tokens; LiteralShape says nothing of slices of strings, floats and byte slices and of opaque values (printed by fmt.Sprint; see C68)."},
  {"property": "C54", "status": "proved", "theorems": ["Verif.Props.C54_tokens", "Verif.Props.C54_names", "Verif.Props.C54_name"], "note": ""},
  {"property": "C55", "status": "proved", "theorems": ["Verif.Props.C55_roundtrip", "Verif.Props.C55_faithful"], "note": "Whole-statement parse-back against the recursive-descent reader of Spec/Sql, with the meaning of statements given in Spec/Meaning."},
  {"property": "C56", "status": "proved", "theorems": ["Verif.Props.C56_orderBy"], "note": ""},
  {"property": "C57", "status": "proved", "theorems": ["Verif.Props.C57_count", "Verif.Props.C57_others"], "note": ""},
  {"property": "C58", "status": "proved", "theorems": ["Verif.Props.C58_with", "Verif.Props.C58_update"], "note": ""},
  {"property": "C59", "status": "proved", "theorems": ["Verif.Props.C59_insert_accepts", "Verif.Props.C59_update_accepts", "Verif.Props.C59_using_accepts", "Verif.Props.C59_insert_text", "Verif.Props.C59_update_text", "Verif.Props.C59_methods"], "note": ""},
  {"property": "C60", "status": "partial", "theorems": ["Verif.Props.C60_partial", "Verif.Props.C60_exact", "Verif.Props.C60_false"], "note": "false of the code: the functions only recognise pointers, which the library never returns (C60_false); proved: no confusion between kinds, pointers are recognised"},
  {"property": "C61", "status": "proved", "theorems": ["Verif.Props.C61_expressible", "Verif.Props.C61_injective"], "note": "The fragment is fitsStmt in Spec/Program; the calls are buildStmt. The reader is that of C55 (Spec/Sql), independent of the library. Not in the fragment: SET assignments in an order other than by name (the library sorts them), names that need escaping, free SQL fragments."},
  {"property": "C62", "status": "proved", "theorems": ["Verif.Props.C62_select", "Verif.Props.C62_insert", "Verif.Props.C62_update", "Verif.Props.C62_delete", "Verif.Props.C62_program"], "note": "Over sequences of calls whose arguments are built from the fragment of C61. SelStep.on, InsStep.on, UpdStep.on and DelStep.on are the machine. SELECT: Distinct and DistinctOn are not both called (the SQL has no such clause; the guards are C23). Having, Limit, Offset and the others are calls of the machine; Prefix and Suffix are not."},
  {"property": "C63", "status": "proved", "theorems": ["Verif.Props.C63_named", "Verif.Props.C63_string", "Verif.Props.C63_all", "Verif.Props.C63_program"], "note": "For the statements of C55 with a comment of one line. String: the values are legible (Spec.Legible): without backslash escapes strings contain no character that is written with a backslash; floats are finite (a float without fraction is read as an integer that rounds to it); slices and opaque values are left out, see C68. The statement may not use the bare word decode, which begins the literals of byte strings."},
  {"property": "C64", "status": "proved", "theorems": ["Verif.Props.C64_literal", "Verif.Props.C64_name", "Verif.Props.C64_statement", "Verif.Props.C64_split", "Verif.Props.C64_trim", "Verif.Props.C64_order", "Verif.Props.C64_number", "Verif.Props.C64_tokens"], "note": "The byte-level functions are those of Model/Utf8 (DecodeRune, DecodeLastRune, AppendRune, Split, TrimSpace, Quote, ParseInt as in the Go library); the encoding of a character is that of Lean's core library."},
  {"property": "C65", "status": "proved", "theorems": ["Verif.Props.C65_name", "Verif.Props.C65_name_injective"], "note": "Over all byte strings; the reader of Go string literals is Spec/Unquote."},
  {"property": "C66", "status": "partial", "theorems": ["Verif.Props.C66_literal", "Verif.Props.C66_decodes", "Verif.Props.C66_partial", "Verif.Props.C66_exact", "Verif.Props.C66_false"], "note": "False of the code: format.String ranges over runes, so each invalid byte becomes U+FFFD and different strings have the same literal (C66_false). Proved: the literal is always valid UTF-8, is the literal of the string decoded with replacement, and denotes the bytes given if and only if these are valid UTF-8. C66_exact: when two strings have the same literal."},
  {"property": "C67", "status": "partial", "theorems": ["Verif.Props.C67_partial", "Verif.Props.C67_real_partial", "Verif.Props.C67_exact", "Verif.Props.C67_short", "Verif.Props.C67_injective", "Verif.Props.C67_false"], "note": "False of the code for NaN and the infinities, which are printed as bare words (C67_false). Proved for every finite float64 and float32: the literal is a numeral that rounds to exactly the number given, with its sign; no shorter one does; different numbers have different literals; exactly the finite numbers have numerals. strconv.FormatFloat itself is a function of the Go library and modelled by its search algorithm."},
  {"property": "C68", "status": "partial", "theorems": ["Verif.Props.C68_partial", "Verif.Props.C68_unsigned", "Verif.Props.C68_booleans", "Verif.Props.C68_words_partial", "Verif.Props.C68_closed", "Verif.Props.C68_false"], "note": "False of the code: fmt.Sprint prints the strings of a []string without quotes or escapes, so that they become part of the SQL text of String(), and different slices have the same text (C68_false; the example beside it shows a second statement being smuggled in). Proved: slices of integers (signed or not) and of booleans are closed and readable; slices of strings are readable exactly if no string contains a space and the slice is not one empty string, and closed exactly if the strings themselves are."},
  {"property": "C69", "status": "partial", "theorems": ["Verif.Props.C69_orderBy", "Verif.Props.C69_with_partial", "Verif.Props.C69_groupBy_partial", "Verif.Props.C69_insertColumns_partial", "Verif.Props.C69_selectColumns_partial", "Verif.Props.C69_returning_partial", "Verif.Props.C69_distinctOn_partial", "Verif.Props.C69_groupBy_exact", "Verif.Props.C69_distinctOn_exact", "Verif.Props.C69_insertColumns_exact", "Verif.Props.C69_selectColumns_exact", "Verif.Props.C69_returning_exact", "Verif.Props.C69_slices", "Verif.Props.C69_with_exact", "Verif.Props.C69_orderBy_exact", "Verif.Props.C69_false", "Verif.Props.C69_append_false", "Verif.Props.C69_caller_false", "Verif.Props.C69_groupBy_false"], "note": "False of the code: With keeps the slice spread in its first call, and GroupBy, Columns and Returning keep a slice of columns or expressions given as the only argument, so that later writes of the caller change the builder (C69_false, C69_append_false, C69_groupBy_false) and With writes to the caller's array (C69_caller_false). Proved for every program and every capacity policy: OrderBy always; With if a slice is not used any more once spread; the others if no element is assigned to once the slice has been passed. What all programs do, without any restriction: for the methods that keep the slice a description in terms of values, where builders are attached to a variable until append moves it (the _exact theorems), and the caller's slices are never changed (C69_slices); for With and OrderBy exactly which step changes which builder or slice (C69_with_exact, C69_orderBy_exact)."},
  {"property": "C70", "status": "proved", "theorems": ["Verif.Props.C70_delete", "Verif.Props.C70_update", "Verif.Props.C70_update_columns", "Verif.Props.C70_insert", "Verif.Props.C70_insert_set", "Verif.Props.C70_insert_keeps", "Verif.Props.C70_select", "Verif.Props.C70_and_safer", "Verif.Props.C70_or_wider"], "note": "For programs whose arguments can be written (C62). Comparison, functions, nested queries, joins, grouping and sorting and conflicts are those of any database. Constraints that refuse a statement are not considered."},
  {"property": "C71", "status": "proved", "theorems": ["Verif.Props.C71_query", "Verif.Props.C71_named", "Verif.Props.C71_string", "Verif.Props.C71_select", "Verif.Props.C71_program"], "note": "Through the round trips C55 and C63 and the substitution of values C04: replacing all values by one value leaves the text, and the statement meant changes only in its values."},
  {"property": "C72", "status": "partial", "theorems": ["Verif.Props.C72_partial", "Verif.Props.C72_render", "Verif.Props.C72_render_exact", "Verif.Props.C72_render_crash", "Verif.Props.C72_expressions", "Verif.Props.C72_conditions", "Verif.Props.C72_join", "Verif.Props.C72_false"], "note": "False: a nil *time.Time, Values() without arguments, a stmt.From value, join strings without a condition or cut after AND and a name, and nils put into slices and embedded values crash (C72_false; C72_join says exactly which join strings, C72_render_exact in which panic every rendering of every statement ends: the first fault in the order of the text). Proved for all other arguments: every panic of building and rendering carries a message."},
  {"property": "C73", "status": "partial", "theorems": ["Verif.Props.C73_partial", "Verif.Props.C73_exact", "Verif.Props.C73_aliases", "Verif.Props.C73_characterised", "Verif.Props.C73_update", "Verif.Props.C73_no_set", "Verif.Props.C73_panics", "Verif.Props.C73_ascii", "Verif.Props.C73_insert", "Verif.Props.C73_insert_exact", "Verif.Props.C73_false"], "note": "False: columns whose aliases contradict the order of their names are not ordered by the comparison of PairContainer.Values, and characters outside ASCII in names are printed or escaped according to the table of the version (C73_false). Proved: if the aliases do not contradict the names (as a rule there are none) the query is the same exactly if the versions call the same characters of the names printable; String() also needs the same fmt.Sprint for values that are left to it. C73_characterised is exact: all versions render the same query exactly if aliases do not contradict names and names are ASCII. Whether rendering panics never depends on the version. What building does is the same for all versions (C73_insert, C73_insert_exact for Set on INSERT; the other methods do not involve the version)."},
  {"property": "C74", "status": "proved", "theorems": ["Verif.Props.C74_FindUsers", "Verif.Props.C74_FindComments", "Verif.Props.C74_FindStaffComments", "Verif.Props.C74_DeleteUser", "Verif.Props.C74_PublishNews", "Verif.Props.C74_CreateComment", "Verif.Props.C74_UpsertComment", "Verif.Props.C74_readme"], "note": "Texts compared token by token, names without their quotes. The comments of examples/named give string(comment.UserID) for the fourth argument, which is an int64 as examples/standard says. The comment of README.md:71-78 is wrong: the program there does not set user_id (C74_readme)."},
  {"property": "C75", "status": "partial", "theorems": ["Verif.Props.C75_partial", "Verif.Props.C75_exact", "Verif.Props.C75_false"], "note": "False if a name, raw fragment or comment has a colon that is not followed by an equals sign: sqlx halves the colons of casts, and takes addresses in comments for parameters (C75_false). C75_exact says that these are all the exceptions. sqlx is not part of the repository; its reader (Spec.Sqlx) is written from its published source."},
  {"property": "C76", "status": "partial", "theorems": ["Verif.Props.C76_partial", "Verif.Props.C76_text_partial", "Verif.Props.C76_alone", "Verif.Props.C76_exact", "Verif.Props.C76_any_sort_partial", "Verif.Props.C76_any_sort_exact", "Verif.Props.C76_insertion", "Verif.Props.C76_unsorted", "Verif.Props.C76_witness", "Verif.Props.C76_false"], "note": "False of the code: Values sorts the columns of the builder in place, so that two goroutines that render an UPDATE (or an INSERT with DO UPDATE) at the same time can lose a column, for both and for good (C76_witness). True for statements without pairs in the key-value syntax and for those in which no column comes before the one in front of it (C76_partial, C76_text_partial), as after one rendering (C76_alone, columns without alias); false for all others (C76_exact). In these sort.Slice is the insertion sort of the Go library, which is what runs up to 12 columns (before Go 1.19 up to 6). C76_any_sort_partial and C76_any_sort_exact are for whatever compares and swaps cells: safe if sorting the columns swaps nothing, a column can get lost if it changes their order (C76_insertion: the insertion sort is one case)."},
  {"property": "C77", "status": "proved", "theorems": ["Verif.Props.C77_delete", "Verif.Props.C77_update", "Verif.Props.C77_update_columns", "Verif.Props.C77_insert", "Verif.Props.C77_insert_set", "Verif.Props.C77_insert_rows"], "note": "Same executor as C70, extended by the answer (Spec/Returning.lean); what * gives for a row is left to the database."},
  {"property": "C78", "status": "partial", "theorems": ["Verif.Props.C78_partial", "Verif.Props.C78_exact", "Verif.Props.C78_witness", "Verif.Props.C78_alone", "Verif.Props.C78_false"], "note": "False of the code: Join, With and OrderBy append to the slice of the shared builder, in place if its array has room, so a goroutine can get the join of another one (C78_witness, C78_false; C78_exact for any clause with room and any two goroutines that add one element to it, whatever they do before in other clauses and afterwards). True if every clause whose array has room is extended by one goroutine at most, where a first WITH does not count (C78_partial), in particular for builders without joins, orderings and common table expressions. Accesses to single cells are interleaved, sequentially consistent. UPDATE is C79."},
  {"property": "C79", "status": "partial", "theorems": ["Verif.Props.C79_partial", "Verif.Props.C79_one", "Verif.Props.C79_sorts", "Verif.Props.C79_append", "Verif.Props.C79_mixed", "Verif.Props.C79_lost", "Verif.Props.C79_insertion", "Verif.Props.C79_witness", "Verif.Props.C79_alone", "Verif.Props.C79_false"], "note": "False of the code: the map of SET is the same for all copies of a builder, so that of two goroutines that set a column one can get the value of the other (C79_mixed) or a query without the column (C79_lost; C79_witness, C79_false: UPDATE t SET without any assignment). True for goroutines that do not give pairs to Set, if pairs that are in the builder are in order (C79_insertion: for insertion sort it is enough that names go up) and every clause whose array has room is extended by one goroutine at most (C79_partial); without that condition it fails (C79_append). One goroutine alone may make any calls and sort in any way that sorts (C79_one; C79_sorts: insertion sort does). Accesses are interleaved, sequentially consistent; that the Go runtime may end the program when a map is written during another access is not represented."},
  {"property": "C80", "status": "partial", "theorems": ["Verif.Props.C80_partial", "Verif.Props.C80_one", "Verif.Props.C80_exact", "Verif.Props.C80_lost", "Verif.Props.C80_witness", "Verif.Props.C80_alone", "Verif.Props.C80_false"], "note": "False of the code: rendering sorts the columns of DO UPDATE in the array of the shared builder, so that of two goroutines both can lose a column (C80_lost, for every way to sort); and a builder with conflict columns but no action, as OnConflict(\"a\", DoUpdate()) leaves it, shares the array of its target, so that of two goroutines that call OnConflict one can get the column of the other (C80_exact; C80_witness, C80_false). C80_partial: in every other case, that is pairs in order and one goroutine at most calling OnConflict where the target has room, every goroutine gets what it gets alone, the builder stays as it was, and all goroutines can end. C80_one: one goroutine alone gets it whatever the order of the pairs. Missing: nothing that is true; the model shares one array, because the two cases exclude each other, and takes actions handed to OnConflict to belong to the goroutine. DELETE needs no such theorem: no method of builder/delete.go appends to a slice of the builder or writes to a map, and rendering DELETE sorts nothing."}
]}

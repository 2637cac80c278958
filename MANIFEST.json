{"claims":[
{"property": "C01", "status": "proved", "theorems": ["DDL.Props.C01_objects_never_panic", "DDL.Props.C01_never_panics", "DDL.Props.C01_force_never_panics"], "note": "for Parse and ParseForce, every text, dialect value and step budget"},
{"property": "C02", "status": "partial", "theorems": ["DDL.Props.C02_returns_partial", "DDL.Props.C02_rejected_returns", "DDL.Props.C02_placed_partial"], "note": "false of the code in general (see C03, C33, C34); proved for every text without an unclosed parenthesis whose script has no reference to a table with a schema, no index definition and no unnamed EXCLUDE followed by another entry at the start of a definition (C02_placed_partial)"},
{"property": "C03", "status": "proved", "theorems": ["DDL.Props.C03_iff", "DDL.Props.C03_unclosed_hangs", "DDL.Props.C03_check_default_hangs"], "note": "General theorem for any unclosed parenthesis whose completion would be a script, and the CHECK/DEFAULT case for all names, dialects and inner tokens; C03_iff: this is exactly when the syntax check never returns."},
{"property": "C04", "status": "proved", "theorems": ["DDL.Props.C04_sqlite_accepts", "DDL.Props.C04_sqlite_rejects", "DDL.Props.C04_sqlite_unambiguous"], "note": "both directions, and rejection of everything else"},
{"property": "C05", "status": "proved", "theorems": ["DDL.Props.C05_postgres_accepts", "DDL.Props.C05_postgres_rejects", "DDL.Props.C05_postgres_unambiguous"], "note": "both directions, and rejection of everything else"},
{"property": "C06", "status": "proved", "theorems": ["DDL.Props.C06_mysql_accepts", "DDL.Props.C06_mysql_rejects", "DDL.Props.C06_mysql_unambiguous"], "note": "both directions, and rejection of everything else"},
{"property": "C07", "status": "proved", "theorems": ["DDL.Props.C07_sqlite_tables"], "note": ""},
{"property": "C08", "status": "proved", "theorems": ["DDL.Props.C08_postgres_tables"], "note": ""},
{"property": "C09", "status": "proved", "theorems": ["DDL.Props.C09_mysql_tables"], "note": ""},
{"property": "C10", "status": "proved", "theorems": ["DDL.Props.C10_round_trip", "DDL.Props.C10_text_determines_tables"], "note": "every list of tables meeting TableOK (Spec/Print.lean), in the three dialects"},
{"property": "C11", "status": "proved", "theorems": ["DDL.Props.C11_concat", "DDL.Props.C11_concat_iff", "DDL.Props.C11_rejected_prefix", "DDL.Props.C11_many", "DDL.Props.C11_order"], "note": ""},
{"property": "C12", "status": "proved", "theorems": ["DDL.Props.C12_skipped", "DDL.Props.C12_begin_end", "DDL.Props.C12_plain", "DDL.Props.C12_case_negation"], "note": "with the code's notion of BEGIN ... END; a nested CASE ... END ends the group early (witness)"},
{"property": "C13", "status": "proved", "theorems": ["DDL.Props.C13_semicolon", "DDL.Props.C13_no_tables", "DDL.Props.C13_empty"], "note": ""},
{"property": "C14", "status": "partial", "theorems": ["DDL.Props.C14_line_exact", "DDL.Props.C14_line_partial", "DDL.Props.C14_leading_newline_negation", "DDL.Props.C14_hidden_newline_negation", "DDL.Props.C14_line_bounds"], "note": "false of the code in two corner cases (leading newline; comment hiding newlines), both refuted by witnesses; the exact line is proved for every rejection, and that it equals the true line when neither case applies"},
{"property": "C15", "status": "proved", "theorems": ["DDL.Props.C15_near", "DDL.Props.C15_near_is_wrong"], "note": ""},
{"property": "C16", "status": "proved", "theorems": ["DDL.Props.C16_error_is_final", "DDL.Props.C16_lexer_error_is_final"], "note": ""},
{"property": "C17", "status": "proved", "theorems": ["DDL.Props.C17_error_shape"], "note": ""},
{"property": "C18", "status": "proved", "theorems": ["DDL.Props.C18_newlines_do_not_matter", "DDL.Props.C18_validate_same"], "note": ""},
{"property": "C19", "status": "proved", "theorems": ["DDL.Props.C19_layout"], "note": ""},
{"property": "C20", "status": "partial", "theorems": ["DDL.Props.C20_comments_partial", "DDL.Props.C20_comment_tokens", "DDL.Props.C20_adjacent_negation", "DDL.Props.C20_adjacent_rejected_negation", "DDL.Props.C20_star_negation"], "note": "false of the code for three comment shapes, refuted by witnesses; proved for all comments without these shapes. How every other text with comments is read is said by C57"},
{"property": "C21", "status": "proved", "theorems": ["DDL.Props.C21_quoted_token", "DDL.Props.C21_nested_negation", "DDL.Props.C21_content_reported"], "note": "one token with exactly that content for every quoted text without quotes and newlines inside; reported without the quotes; a nested quote loses a character (C21_nested_negation)"},
{"property": "C22", "status": "proved", "theorems": ["DDL.Props.C22_case", "DDL.Props.C22_mixed_create", "DDL.Props.C22_case_go"], "note": "For texts equal up to letter case; C22_case assumes only that the numeric parser ignores letter case, which is proved for the model of strconv.ParseFloat (C22_case_go)."},
{"property": "C23", "status": "proved", "theorems": ["DDL.Props.C23_names", "DDL.Props.C23_exclude_negation", "DDL.Props.C23_index_negation"], "note": "for the scripts of C07-C09 (Faithful); outside them refuted by witnesses"},
{"property": "C24", "status": "proved", "theorems": ["DDL.Props.C24_types", "DDL.Props.C24_schema_negation", "DDL.Props.C24_fulltext_negation"], "note": "for the scripts of C07-C09 (Faithful); outside them refuted by witnesses"},
{"property": "C25", "status": "proved", "theorems": ["DDL.Props.C25_repeated_rejected"], "note": "any position in any script; an error is returned unless a parenthesis is left open"},
{"property": "C26", "status": "proved", "theorems": ["DDL.Props.C26_first_accepted", "DDL.Props.C26_result_origin"], "note": ""},
{"property": "C27", "status": "partial", "theorems": ["DDL.Props.C27_force_never_errors_negation", "DDL.Props.C27_all_rejected_negation"], "note": "false of the code; the negation is proved for every input that all dialects reject: the result is an empty list and no error"},
{"property": "C28", "status": "proved", "theorems": ["DDL.Props.C28_accepts", "DDL.Props.C28_errors", "DDL.Props.C28_keeps_quotes"], "note": ""},
{"property": "C29", "status": "proved", "theorems": ["DDL.Props.C29_open_quote", "DDL.Props.C29_open_comment"], "note": ""},
{"property": "C30", "status": "proved", "theorems": ["DDL.Props.C30_backquote_postgres", "DDL.Props.C30_wide_space", "DDL.Props.C30_sharp_mysql", "DDL.Props.C30_sharp_elsewhere"], "note": ""},
{"property": "C31", "status": "proved", "theorems": ["DDL.Props.C31_autoincrement", "DDL.Props.C31_named_negation"], "note": "for the scripts of C07-C09 (Faithful); outside them refuted by witnesses"},
{"property": "C32", "status": "proved", "theorems": ["DDL.Props.C32_keys_as_written", "DDL.Props.C32_same_name_iff", "DDL.Props.C32_quoted_negation"], "note": "reported as written; the same as in Columns iff not quoted"},
{"property": "C33", "status": "proved", "theorems": ["DDL.Props.C33_qualified_reference_hangs", "DDL.Props.C33_column_hangs"], "note": "any accepted script whose last table ends this way, and a family over all names"},
{"property": "C34", "status": "proved", "theorems": ["DDL.Props.C34_index_hangs", "DDL.Props.C34_column_index_hangs"], "note": "any accepted script whose last table ends this way, and a family over all names"},
{"property": "C35", "status": "proved", "theorems": ["DDL.Props.C35_not_null_lost"], "note": "any column of any script, any constraints before and after"},
{"property": "C36", "status": "proved", "theorems": ["DDL.Props.C36_column_check", "DDL.Props.C36_column_default", "DDL.Props.C36_table_check", "DDL.Props.C36_text"], "note": "column and table checks, defaults; adjacent commas are merged"},
{"property": "C37", "status": "proved", "theorems": ["DDL.Props.C37_lexer_terminates", "DDL.Props.C37_token_shape"], "note": ""},
{"property": "C38", "status": "partial", "theorems": ["DDL.Props.C38_again_iff", "DDL.Props.C38_again_partial", "DDL.Props.C38_negation"], "note": "false of the code: C38_negation; C38_again_iff says exactly for which scripts it fails, C38_again_partial proves it for all others, including that every token is kept"},
{"property": "C39", "status": "proved", "theorems": ["DDL.Props.C39_lexer", "DDL.Props.C39_validator", "DDL.Props.C39_converter"], "note": "Objects modelled with their fields and index arithmetic, proved to refine the state-passing model; a used object answers every further call as a new one does, for all reachable histories of completed calls."},
{"property": "C40", "status": "proved", "theorems": ["DDL.Props.C40_renaming"], "note": "Token-level: the second text lexes to the renamed tokens of the first."},
{"property": "C41", "status": "proved", "theorems": ["DDL.Props.C41_hangs_iff", "DDL.Props.C41_returns_iff", "DDL.Props.C41_force_returns_iff", "DDL.Props.C41_sizes"], "note": "the limit applies to the number of iterations of each loop and the depth of each recursive function (the model's fuel)"},
{"property": "C42", "status": "proved", "theorems": ["DDL.Props.C42_from_text", "DDL.Props.C42_ascii", "DDL.Props.C42_no_eof"], "note": "no exclusions; DigitN and DigitM are not covered (see C24)"},
{"property": "C43", "status": "proved", "theorems": ["DDL.Props.C43_no_point", "DDL.Props.C43_no_point_go"], "note": "for ParseFloat as modelled in Model/Float.lean, and for any numeric parser meeting NumOK that rejects a lone dot"},
{"property": "C44", "status": "proved", "theorems": ["DDL.Props.C44_message_tells", "DDL.Props.C44_message_one_line", "DDL.Props.C44_lexer_near"], "note": "the format string of fmt.Sprintf is modelled as concatenation; line numbers in decimal"},
{"property": "C45", "status": "partial", "theorems": ["DDL.Props.C45_json_negation", "DDL.Props.C45_json_partial", "DDL.Props.C45_json_iff"], "note": "false of the code: C45_json_negation; C45_json_partial proves it for all texts without the words for infinity and NaN, C45_json_iff says exactly on which scripts (within the exclusions of C07-C09) it fails. The text encoding/json writes is modelled for C63."},
{"property": "C46", "status": "proved", "theorems": ["DDL.Props.C46_number_default", "DDL.Props.C46_number_iff"], "note": "strconv.ParseFloat as modelled in Model/Float.lean; the literal grammar is in Spec/Number.lean"},
{"property": "C47", "status": "proved", "theorems": ["DDL.Props.C47_sqlite_postgres", "DDL.Props.C47_mysql", "DDL.Props.C47_force", "DDL.Props.C47_sharp_negation", "DDL.Props.C47_check_not_null_negation"], "note": "the three pairs of dialects; C47_sharp_negation and C47_check_not_null_negation show that the two exclusions for MySQL are needed"},
{"property": "C48", "status": "proved", "theorems": ["DDL.Props.C48_text", "DDL.Props.C48_bytes", "DDL.Props.C48_hangs", "DDL.Props.C48_never_panics", "DDL.Props.C48_force", "DDL.Props.C48_invalid_negation"], "note": "[]rune(ddl) and string(rune) as in the Go runtime, Model/Bytes.lean; strings.ToUpper changes ASCII letters only in the model; C48_invalid_negation shows that bytes that are not UTF-8 are lost"},
{"property": "C49", "status": "proved", "theorems": ["DDL.Props.C49_value", "DDL.Props.C49_not_finite", "DDL.Props.C49_exact", "DDL.Props.C49_integer", "DDL.Props.C49_rounded"], "note": "the rounding of strconv.ParseFloat is modelled as documented (nearest, ties to even) on the exact fraction, Model/Value.lean; literals of at most 2000 characters"},
{"property": "C50", "status": "partial", "theorems": ["DDL.Props.C50_returned_partial", "DDL.Props.C50_accepted_partial", "DDL.Props.C50_rejected_negation", "DDL.Props.C50_documented_negation", "DDL.Props.C50_hangs_negation"], "note": "false of the code: C50_documented_negation, C50_rejected_negation, C50_hangs_negation. C50_accepted_partial: accepted without the parts marked `only` and outside `Supported`; C50_returned_partial: also converted, without the parts marked `most`."},
{"property": "C51", "status": "proved", "theorems": ["DDL.Props.C51_first_wrong", "DDL.Props.C51_text", "DDL.Props.C51_hang"], "note": "for errors of the syntax check; errors of the lexer (unclosed quote or comment, stray character) are characterised in C29 and C44"},
{"property": "C52", "status": "proved", "theorems": ["DDL.Props.C52_linear", "DDL.Props.C52_force_linear", "DDL.Props.C52_counted"], "note": "for texts on which Parse returns; the cost of comparing and joining strings inside one operation is not counted"},
{"property": "C53", "status": "proved", "theorems": ["DDL.Props.C53_parse", "DDL.Props.C53_force", "DDL.Props.C53_sqlite", "DDL.Props.C53_postgres", "DDL.Props.C53_mysql", "DDL.Props.C53_results"], "note": "the syntax trees are generated from /repo by tools/gen_go.py and given meaning by lean/Verif/Go/Semantics.lean; that script, that interpreter and the library functions in it are trusted (DESIGN.md)"},
{"property": "C54", "status": "proved", "theorems": ["DDL.Props.C54_returns", "DDL.Props.C54_returned", "DDL.Props.C54_hangs", "DDL.Props.C54_error", "DDL.Props.C54_words", "DDL.Props.C54_faithful", "DDL.Props.C54_force", "DDL.Props.C54_force_hangs", "DDL.Props.C54_same", "DDL.Props.C54_type_negation"], "note": "CaseMap: any map of characters that is the usual one on ASCII; how strings.ToUpper maps a string (character by character) is trusted"},
{"property": "C55", "status": "proved", "theorems": ["DDL.Props.C55_order", "DDL.Props.C55_sqlite_negation", "DDL.Props.C55_mysql_check_negation", "DDL.Props.C55_mysql_key_negation", "DDL.Props.C55_mysql_constraint_negation"], "note": "with the exceptions named in the statement, each shown to be real by a negation theorem"},
{"property": "C56", "status": "proved", "theorems": ["DDL.Props.C56_sum", "DDL.Props.C56_shuffled", "DDL.Props.C56_exclude_negation"], "note": "the tables need Faithful (exclusions of C07-C09) for each of the scripts compared; acceptance needs no exclusion"},
{"property": "C57", "status": "proved", "theorems": ["DDL.Props.C57_tokens", "DDL.Props.C57_errors", "DDL.Props.C57_total", "DDL.Props.C57_unique", "DDL.Props.C57_rejected", "DDL.Props.C57_parse", "DDL.Props.C57_passes"], "note": "Lexed is a relation given by rules, independent of the lexer; both outcomes of Lex are characterised by it."},
{"property": "C58", "status": "proved", "theorems": ["DDL.Props.C58_rewrite", "DDL.Props.C58_image", "DDL.Props.C58_tokens", "DDL.Props.C58_apart_negation", "DDL.Props.C58_quotes_negation", "DDL.Props.C58_key_negation"], "note": "conditions as in the statement (Spec/Tidy.lean); C58_image shows that the tables obtained are exactly those of C10. Some tokens with quotes inside quotes would survive rewriting too and are not covered."},
{"property": "C59", "status": "proved", "theorems": ["DDL.Props.C59_exact", "DDL.Props.C59_result"], "note": "an equivalence with Faithful; the condition on the names , and ) for scripts with index entries is part of the statement."},
{"property": "C60", "status": "proved", "theorems": ["DDL.Props.C60_statements", "DDL.Props.C60_entries"], "note": "for every accepted script; together with C59 it says where the first wrong part of the result is."},
{"property": "C61", "status": "proved", "theorems": ["DDL.Props.C61_values", "DDL.Props.C61_hangs", "DDL.Props.C61_unshared", "DDL.Props.C61_untouched", "DDL.Props.C61_calls", "DDL.Props.C61_tables", "DDL.Props.C61_append", "DDL.Props.C61_force", "DDL.Props.C61_force_values"], "note": "Converter with slices in memory; the tokens of lexer and syntax check are appended one by one. The list of constraints seen that the validators keep is left out."},
{"property": "C62", "status": "proved", "theorems": ["DDL.Props.C62_nil", "DDL.Props.C62_force"], "note": "in the model of C61."},
{"property": "C63", "status": "proved", "theorems": ["DDL.Props.C63_unambiguous", "DDL.Props.C63_text", "DDL.Props.C63_error", "DDL.Props.C63_determines", "DDL.Props.C63_force_text", "DDL.Props.C63_force_determines"], "note": "in the model of C61 and C62; encoding/json is modelled from the published Go 1.22 library; the text of a float64 is a parameter."},
{"property": "C64", "status": "proved", "theorems": ["DDL.Props.C64_tables", "DDL.Props.C64_column", "DDL.Props.C64_exact", "DDL.Props.C64_statements", "DDL.Props.C64_entries"], "note": "the columns concerned and what is reported of them are given in Spec/Reported.lean."},
{"property": "C65", "status": "proved", "theorems": ["DDL.Props.C65_results", "DDL.Props.C65_same", "DDL.Props.C65_no_race", "DDL.Props.C65_own", "DDL.Props.C65_kept", "DDL.Props.C65_progress"], "note": "goroutines as trees of operations on a shared memory; objects of a call and read-only tables are outside that memory."},
{"property": "C66", "status": "proved", "theorems": ["DDL.Props.C66_errors", "DDL.Props.C66_one", "DDL.Props.C66_every_text", "DDL.Props.C66_further_down"], "note": "the error is defined in Props/ErrorExact.lean from the grammar and the lexical rules alone."}
]}

{"claims": [
 {"property": "C01", "status": "proved", "theorems": ["GQL.C01_scan_returns", "GQL.C01_tokens_end"], "note": ""},
 {"property": "C02", "status": "proved", "theorems": ["GQL.C02_progress"], "note": ""},
 {"property": "C03", "status": "proved", "theorems": ["GQL.C03_tokens", "GQL.C03_deterministic", "GQL.C03_spec_complete", "GQL.C03_spec_sound"], "note": "Exact on every NUL-free text against the lexical grammar with the code's own block strings (GoBlock); against the specification's block strings where every block string is free of CR, control characters and double backslashes."},
 {"property": "C04", "status": "partial", "theorems": ["GQL.C04_name_partial", "GQL.C04_name_bytes", "GQL.C04_refuted"], "note": "Holds for NUL-free valid UTF-8; false in general: NUL and stray bytes get into names (C04_refuted)."},
 {"property": "C05", "status": "partial", "theorems": ["GQL.C05_eof_partial", "GQL.C05_refuted", "GQL.C05_dropped", "GQL.C05_refuted_parse", "GQL.C05_refuted_comment"], "note": "Holds for inputs without a zero byte; false in general: C05_dropped shows exactly what happens after a line break and a NUL byte: everything that follows is ignored, whatever it is. C05_refuted_comment: a NUL inside a comment ends the comment."},
 {"property": "C06", "status": "proved", "theorems": ["GQL.C06_strings"], "note": "Both directions, on every NUL-free text."},
 {"property": "C07", "status": "partial", "theorems": ["GQL.C07_blocks", "GQL.C07_blocks_partial", "GQL.C07_refuted_crlf", "GQL.C07_refuted_backslash", "GQL.C07_refuted_cr"], "note": "Exact characterisation of what the code does; equals the specification on block strings without CR, control characters and double backslashes; refuted otherwise."},
 {"property": "C08", "status": "partial", "theorems": ["GQL.C08_lines_partial", "GQL.C08_lines_crlf_partial", "GQL.C08_refuted", "GQL.C08_refuted_block", "GQL.C08_exact", "GQL.C08_right_iff"], "note": "Right for LF-only texts and CRLF/CR texts whose tokens are on one line; refuted for mixed line ends and CRLF in block strings. C08_exact gives the line of every token (and of EOF) for every text without NUL, C08_right_iff says when it is right."},
 {"property": "C09", "status": "partial", "theorems": ["GQL.C09_columns_partial", "GQL.C09_refuted_crlf", "GQL.C09_refuted_block", "GQL.C09_refuted_empty", "GQL.C08_exact", "GQL.C08_right_iff"], "note": "Right for LF-only texts with one-line tokens not ending in an empty string; refuted otherwise. C08_exact gives the column of every token (and of EOF) for every text without NUL, C08_right_iff says when it is right."},
 {"property": "C10", "status": "proved", "theorems": ["GQL.C10_decode_encode", "GQL.C10_injective", "GQL.C10_read", "GQL.C10_invalid"], "note": ""},
 {"property": "C100", "status": "proved", "theorems": ["GQL.C100_query", "GQL.C100_sdl", "GQL.C100_json", "GQL.C100_refuted"], "note": "Proved as stated, as the exact behaviour; C100_refuted is the concrete pair of texts with equal errors (what a user would hope for, a location, is never there: TODO in validation/errors.go). Errors of the lexer and parser are not in this list; see C76."},
 {"property": "C101", "status": "proved", "theorems": ["GQL.C101_query", "GQL.C101_sdl", "GQL.C101_syntax"], "note": "For every call that returns. When a call returns is the subject of C13, C14, C53 and C62."},
 {"property": "C11", "status": "proved", "theorems": ["GQL.C11_tokens", "GQL.C11_document", "GQL.C11_removal"], "note": ""},
 {"property": "C12", "status": "partial", "theorems": ["GQL.C12_refuted", "GQL.C12_panics_iff_partial", "GQL.C12_no_panic_partial"], "note": "The code violates the property: a fragment keyword not followed by a name crashes Parse (C12_refuted). The panics are characterised exactly; everything else is free of panics."},
 {"property": "C13", "status": "proved", "theorems": ["GQL.C13_terminates", "GQL.C13_depth"], "note": ""},
 {"property": "C14", "status": "proved", "theorems": ["GQL.C14_complete", "GQL.C14_text"], "note": ""},
 {"property": "C15", "status": "partial", "theorems": ["GQL.C15_exact_partial", "GQL.C15_strict_partial", "GQL.C15_unambiguous", "GQL.C15_refuted_parens", "GQL.C15_refuted_const", "GQL.C15_refuted_cond", "GQL.C15_refuted_implements", "GQL.C15_refuted_extension"], "note": "The code accepts more than the specification's grammar. Proved: exactly what it accepts (C15_exact_partial), and an exact criterion for an accepted text to be in the grammar of the specification (C15_strict_partial); counterexamples for each kind of deviation."},
 {"property": "C16", "status": "partial", "theorems": ["GQL.C16_refuted", "GQL.C16_refuted_unclosed", "GQL.C16_types_partial"], "note": "False of the code (C16_refuted): parseType drops the error inside a bracket. Exact on types without missing element type."},
 {"property": "C17", "status": "proved", "theorems": ["GQL.C17_counters"], "note": "counters are unbounded naturals in the model (int32 in the code)"},
 {"property": "C18", "status": "proved", "theorems": ["GQL.C18_locations"], "note": ""},
 {"property": "C19", "status": "proved", "theorems": ["GQL.C19_integers", "GQL.C19_overflow"], "note": ""},
 {"property": "C20", "status": "partial", "theorems": ["GQL.C20_refuted", "GQL.C20_errors_partial"], "note": "a missing value gives an error that quotes no token (C20_refuted); all other errors quote a token of the input"},
 {"property": "C21", "status": "proved", "theorems": ["GQL.C21_directive_locations"], "note": ""},
 {"property": "C22", "status": "proved", "theorems": ["GQL.C22_names_bits", "GQL.C22_mask", "GQL.C22_parse"], "note": ""},
 {"property": "C23", "status": "partial", "theorems": ["GQL.C23_partial", "GQL.C23_refuted_query", "GQL.C23_refuted_list", "GQL.C23_refuted_description", "GQL.C23_refuted_string", "GQL.C23_refuted_condition", "GQL.C23_refuted_float", "GQL.C23_refuted_panic"], "note": "The claim as stated is false of the code: seven witnesses (anonymous query with variables, list types of fields and arguments, three quotes in a description, a carriage return in a string, a non-null type condition, floats printed without a point, a list type without item type). Proved for every clean input whose document is DocOk (Spec/Dump.lean): printing returns a text that parses to the same document up to locations. fmt %g and ParseFloat are arbitrary parameters."},
 {"property": "C24", "status": "partial", "theorems": ["GQL.C24_exact", "GQL.C24_partial", "GQL.C24_refuted"], "note": "The claim as stated is false of the code: eight witnesses (C24_refuted). C24_exact: a UTF-8 string without NUL reads back, at any nesting depth, if and only if it is StrOk (Spec/Dump.lean)."},
 {"property": "C25", "status": "partial", "theorems": ["GQL.C25_histories_partial", "GQL.C25_refuted", "GQL.C25_join_nil", "GQL.C25_operations"], "note": "all histories of Add/Reverse/Join/Insert/FromSlice on any number of list variables refine sequences, except Join on a nil receiver, which the code ignores (C25_refuted)"},
 {"property": "C26", "status": "proved", "theorems": ["GQL.C26_add", "GQL.C26_reverse", "GQL.C26_join", "GQL.C26_insert"], "note": "frame theorems on the heap model"},
 {"property": "C27", "status": "partial", "theorems": ["GQL.C27_exact", "GQL.C27_next_partial", "GQL.C27_refuted"], "note": "exact behaviour for every sequence of Next/Reset; Reset is broken in the code (Generator never stores the original list)"},
 {"property": "C28", "status": "partial", "theorems": ["GQL.C28_trace", "GQL.C28_once", "GQL.C28_nested", "GQL.C28_handlers", "GQL.C28_order_partial", "GQL.C28_order_executable", "GQL.C28_order_refuted"], "note": "every node once, nesting and handler order are proved for all documents; source order is proved for all documents except those with an input value that has a default and directives or a type extension with interfaces and directives, where it is false (C28_order_refuted)"},
 {"property": "C29", "status": "proved", "theorems": ["GQL.C29_query", "GQL.C29_sdl"], "note": "All rules of the code that register handlers, any list of them, any document and schema. In ValidateSDL the errors that are there before any rule (repeated definitions) are counted once. UniqueOperationTypes may be given once only (it keeps flags in the context)."},
 {"property": "C30", "status": "proved", "theorems": ["GQL.C30_query", "GQL.C39_errors_partial"], "note": "Exact multiset of errors, for every document (parsed or not); C39_errors_partial combines the rules for ParseDoc."},
 {"property": "C31", "status": "proved", "theorems": ["GQL.C31_query", "GQL.parsed_counts"], "note": "For every document whose counter is right; parsed_counts shows that every parsed document is such."},
 {"property": "C32", "status": "proved", "theorems": ["GQL.C32_query", "GQL.C32_sdl"], "note": "Exact multiset of errors, query and SDL documents."},
 {"property": "C33", "status": "partial", "theorems": ["GQL.C33_exact", "GQL.C33_partial", "GQL.C33_refuted"], "note": "Termination and the exact set of reported variables for every document. The property as stated fails for documents with variables inside type-system definitions (C33_refuted; such documents are rejected by another rule anyway); C33_partial is the property for all other documents."},
 {"property": "C34", "status": "proved", "theorems": ["GQL.C34_query"], "note": "Definitions are identified with their position; cycles included."},
 {"property": "C35", "status": "proved", "theorems": ["GQL.C35_query", "GQL.C35_sdl"], "note": "Exact multiset of errors."},
 {"property": "C36", "status": "proved", "theorems": ["GQL.C36_query", "GQL.C36_sdl"], "note": "Exact multiset of errors; Spec.repeated has each name count-1 times (repeated_count)."},
 {"property": "C37", "status": "proved", "theorems": ["GQL.C37_query", "GQL.C37_sdl"], "note": "Exact multiset of errors."},
 {"property": "C38", "status": "proved", "theorems": ["GQL.C38_query", "GQL.C38_sdl"], "note": "Exact multiset of errors."},
 {"property": "C39", "status": "partial", "theorems": ["GQL.C39_accepts", "GQL.C39_otherwise_partial", "GQL.C39_errors_partial", "GQL.C39_refuted"], "note": "Acceptance is proved for every text and schema. The second half holds unless the parser panics (C39_refuted, see C12)."},
 {"property": "C40", "status": "proved", "theorems": ["GQL.C40_sdl"], "note": "Errors and the definitions that win, for every document and schema."},
 {"property": "C41", "status": "partial", "theorems": ["GQL.C41_exact", "GQL.C41_partial", "GQL.C41_refuted"], "note": "Refuted: from the second argument on, every argument is reported (Generator.Reset). Exact characterisation, and the property for directives with at most one argument."},
 {"property": "C42", "status": "proved", "theorems": ["GQL.C42_sdl"], "note": "Exact multiset of errors."},
 {"property": "C43", "status": "proved", "theorems": ["GQL.C43_sdl"], "note": "Exact multiset of errors."},
 {"property": "C44", "status": "partial", "theorems": ["GQL.C44_exact", "GQL.C44_partial", "GQL.C44_refuted"], "note": "Refuted by _id and a_b. Exact characterisation, and the property where no name has an underscore in exactly one of the first two places."},
 {"property": "C45", "status": "partial", "theorems": ["GQL.C45_exact", "GQL.C45_partial", "GQL.C45_refuted"], "note": "Refuted by a schema extension before the schema definition. Exact characterisation, and the property with the definition first."},
 {"property": "C46", "status": "proved", "theorems": ["GQL.C46"], "note": "Every text; base schema nil. Holds for whatever ParseSDLDoc returns as schema."},
 {"property": "C47", "status": "partial", "theorems": ["GQL.C47_exact", "GQL.C47_partial", "GQL.C47_refuted", "GQL.C47_refuted_schema"], "note": "As stated the property is false: members of an extension are dropped when the definition has none of that kind (C47_refuted), and schema extensions without schema definition are ignored (C47_refuted_schema). C47_exact says exactly what happens for every document; C47_partial is the property under the condition that excludes those cases."},
 {"property": "C48", "status": "partial", "theorems": ["GQL.C48_exact", "GQL.C48_partial", "GQL.C48_refuted"], "note": "As stated false: extending a schema replaces its types and directives and resets the query type, and no schema with a type Query can be extended at all (C48_refuted). C48_exact characterises the result for every document and schema."},
 {"property": "C49", "status": "partial", "theorems": ["GQL.C49_exact", "GQL.C49_partial", "GQL.C49_refuted"], "note": "As stated false: when ValidateSchema rejects, the caller's schema has already been overwritten (C49_refuted). C49_exact says exactly when it is changed and to what."},
 {"property": "C50", "status": "proved", "theorems": ["GQL.C50", "GQL.C50_all_errors"], "note": "For every well-formed schema on which ValidateSchema returns (see C53): the errors about root types are exactly the specified ones; C50_all_errors gives the complete list of errors."},
 {"property": "C51", "status": "partial", "theorems": ["GQL.C51_exact", "GQL.C51_wrappers", "GQL.C51_refuted"], "note": "Exact list of the errors about types of fields and arguments. False as stated: Int, Float and Boolean are not among the built-in types, so a field of type Int is reported (C51_refuted)."},
 {"property": "C52", "status": "partial", "theorems": ["GQL.C52_exact", "GQL.C52_partial", "GQL.C52_reflexive", "GQL.C52_pointers", "GQL.C52_transitive", "GQL.C52_refuted"], "note": "Exact: returns iff the comparison is not stuck, and then decides the specification. As stated it is refuted: on an object type that is not a possible type of an abstract type it runs for ever."},
 {"property": "C53", "status": "partial", "theorems": ["GQL.C53_exact", "GQL.C53_hangs", "GQL.C53_refuted", "GQL.C53_document", "GQL.C53_early", "GQL.C53_refuted_document"], "note": "ValidateSchema (C53_exact) and ParseSDLDoc (C53_document, C53_early) return iff the schema is complete and settled; refuted as stated by a concrete schema and a concrete text (C53_refuted, C53_refuted_document)."},
 {"property": "C54", "status": "partial", "theorems": ["GQL.C54_partial", "GQL.C54_refuted"], "note": "Exact when the comparisons end; refuted as stated since ValidateSchema hangs."},
 {"property": "C55", "status": "proved", "theorems": ["GQL.C55", "GQL.C55_iff", "GQL.C55_schema"], "note": "validateName for every byte string; and which names of a schema are checked."},
 {"property": "C56", "status": "partial", "theorems": ["GQL.C56_validate", "GQL.C56_document", "GQL.C56_refuted_build"], "note": "ValidateSchema and ParseSDLDoc: same result up to the order of errors and of map entries for every iteration order. False for BuildSchema called on a document that ValidateSDL rejects (C56_refuted_build)."},
 {"property": "C57", "status": "proved", "theorems": ["GQL.C57"], "note": "All lists; indexing and slicing out of range are panics in the model."},
 {"property": "C58", "status": "partial", "theorems": ["GQL.C58_partial", "GQL.C58_refuted"], "note": "False as stated: QuotedOrList writes the quotation marks into the caller's slice, for every non-empty slice."},
 {"property": "C59", "status": "proved", "theorems": ["GQL.C59"], "note": "For every lower-casing and edit distance (parameters) and every sort.Slice that keeps its documented contract."},
 {"property": "C60", "status": "partial", "theorems": ["GQL.C60_exact", "GQL.C60_partial", "GQL.C60_refuted", "GQL.C60_refuted_document"], "note": "False as stated: messages are not escaped, so any message that quotes a name gives malformed JSON (C60_refuted; C60_refuted_document for an error that ParseDoc returns). C60_exact: the JSON says what it should if and only if message and path strings need no escapes and no column is negative."},
 {"property": "C61", "status": "proved", "theorems": ["GQL.C61_sorted", "GQL.C61_canonical"], "note": "The order is decreasing when the list is gone through with ForEach (SortErrors builds it with Add)."},
 {"property": "C62", "status": "partial", "theorems": ["GQL.C62_partial", "GQL.C62_refuted"], "note": "As stated false: a list type without item type is accepted by the parser and makes ParseSDLDoc panic. C62_partial: no panic otherwise, given that the parser does not panic (C14)."},
 {"property": "C63", "status": "partial", "theorems": ["GQL.C63_refuted", "GQL.C63_partial", "GQL.C63_rule", "GQL.C63_sdl"], "note": "False as stated: the rule is not enabled (C63_refuted), and would find nothing if it were (C63_rule); in ValidateSDL it would report every repetition (C63_sdl). C63_partial: the empty name is never shared."},
 {"property": "C64", "status": "partial", "theorems": ["GQL.C64_enum", "GQL.C64_field", "GQL.C64_refuted", "GQL.C64_refuted_empty"], "note": "Exact behaviour proved. The claim holds for fields and for values that exist; it fails for values that do not exist: the call never returns (C64_refuted), and the empty name is reported as found (C64_refuted_empty)."},
 {"property": "C65", "status": "partial", "theorems": ["GQL.C65_partial", "GQL.C65_exact", "GQL.C65_refuted"], "note": "SoundSchema (what the code checks, stated independently) holds of every returned schema, and decides the outcome. Thirteen requirements of the specification are not checked: C65_refuted has a witness for each."},
 {"property": "C66", "status": "partial", "theorems": ["GQL.C66_reads", "GQL.C66_injective", "GQL.C66_refuted"], "note": "Proved for all types with proper names whose lists have an item type; the parser also accepts broken list types (C15), for which it fails: C66_refuted."},
 {"property": "C67", "status": "partial", "theorems": ["GQL.C67_returns", "GQL.C67_exact", "GQL.C67_partial", "GQL.C67_refuted"], "note": "When a response is written is proved exactly. C67_exact: the text says the same if and only if strings and names need no escapes and floats are finite; so the claim is false (C67_refuted). strconv.FormatFloat is a parameter; C67_exact assumes of it that it gives a decimal number, NaN, +Inf or -Inf."},
 {"property": "C68", "status": "partial", "theorems": ["GQL.C68_lines", "GQL.C68_partial", "GQL.C68_definitions", "GQL.C68_refuted_empty", "GQL.C68_refuted_zero"], "note": "Lines: proved in full. Columns: false for an empty string that ends the input and for Illegal tokens (witnesses); proved for every other token of every input. Definitions of accepted documents: proved in full."},
 {"property": "C69", "status": "proved", "theorems": ["GQL.C69_verdict", "GQL.C69_errors", "GQL.C69_layout"], "note": "C69_errors (same messages up to order) excludes documents with variables in type-system definitions; C69_verdict has no such condition."},
 {"property": "C70", "status": "partial", "theorems": ["GQL.C70_partial", "GQL.C70_refuted"], "note": "C70_partial: acceptance iff the text parses and the eight implemented requirements hold. C70_refuted: for each of eighteen further requirements of the specification an accepted document that violates it."},
 {"property": "C71", "status": "partial", "theorems": ["GQL.C71_partial", "GQL.C71_queries", "GQL.C71_refuted_brace", "GQL.C71_refuted_bracket"], "note": "True of all pairs whose first document ends with an operation or fragment (C71_queries); in general with two exceptions (C71_partial), each with a counterexample: a definition with omitted braces before '{', which the grammar of the specification excludes too, and '[' at the end of a text, which the code takes for a type."},
 {"property": "C72", "status": "partial", "theorems": ["GQL.C72_idempotent_partial", "GQL.C72_exact_partial", "GQL.C72_refuted"], "note": "For the documents of C23_partial (DocOk); C72_refuted: the indentation in a multi-line string changes each time."},
 {"property": "C73", "status": "proved", "theorems": ["GQL.C73_input", "GQL.C73_output", "GQL.C73_sorts", "GQL.C73_kinds", "GQL.C73_member", "GQL.C73_possible"], "note": "All for every schema (C73_kinds: every schema without a type of empty name, which no build makes)."},
 {"property": "C74", "status": "proved", "theorems": ["GQL.C74_histories", "GQL.C74_others", "GQL.C74_globals", "GQL.C74_readable"], "note": "Reading steps (ValidateSDL, ValidateSchema) work on the value that is read out of the memory; definitions are allocated when BuildSchema begins."},
 {"property": "C75", "status": "proved", "theorems": ["GQL.C75_message", "GQL.C75_total", "GQL.C75_unique", "GQL.C75_illegal"], "note": "Texts are sequences of Unicode scalar values without NUL. Go's %q is modelled exactly up to U+007F; above that every character is taken to be printable."},
 {"property": "C76", "status": "partial", "theorems": ["GQL.C76_text", "GQL.C76_requests", "GQL.C76_local", "GQL.C76_asks_partial", "GQL.C76_asks_false", "GQL.C76_fragment_name_false", "GQL.C76_value_false"], "note": "Text and locality proved in full. C76_asks_partial: with a token that the error asks for, parsing goes on beyond it; excluded: what is asked for after a description (an operation or fragment after a string is refused by an error that asks for it, C76_asks_false), the request Name '!on', which is made one token too late (C76_fragment_name_false), and 'NamedType', which names no token. The error for a missing value does not say what is wrong (C76_value_false)."},
 {"property": "C77", "status": "proved", "theorems": ["GQL.Conc.C77_no_race", "GQL.Conc.C77_one_after_the_other", "GQL.Conc.C77_outcome", "GQL.Conc.C77_no_blocking", "GQL.Conc.C77_calls_end", "GQL.Conc.C77_careless_race"], "note": "The memory is sequentially consistent and accesses are to whole cells; ParseDoc reads everything its schema points to and then works on the value (no cell of the schema is written while the call runs, by C77_one_after_the_other). C77_careless_race shows that the rule for callers is needed."},
 {"property": "C78", "status": "proved", "theorems": ["GQL.C78_sdl", "GQL.C78_query", "GQL.C78_exists"], "note": "The code as it is also counts variables of type-system definitions that follow an executable one (Spec.UsesAround, as in C33); in Validate the lookup of a type or directive panics, as there is no SDL context (part of C78_query)."},
 {"property": "C79", "status": "partial", "theorems": ["GQL.C79_first_wrong_partial", "GQL.C79_alternative", "GQL.C79_false_fragment", "GQL.C79_false_condition", "GQL.C79_false_root"], "note": "For every text without NUL: the error is about a token such that no text with it at that place is accepted (FailsAt). The text before it can be completed to an accepted text, or it cannot, and then the error came late in one of the three ways of Late (C79_alternative); there the claim is false (C79_false_*). Late describes the tokens before the error only, so that it is also true of some texts that can be completed (schema{query:Q} type A{query:[T)."},
 {"property": "C80", "status": "partial", "theorems": ["GQL.C80_text", "GQL.C80_text_utf8", "GQL.C80_tokens_partial", "GQL.C80_parse_partial", "GQL.C80_refuted_end", "GQL.C80_refuted_accepts", "GQL.C80_refuted_block"], "note": "False as stated in two corners (refuted with witnesses): a stray byte at the very end of the input is overlooked, and CR, stray byte, LF within a block string lose a line terminator; NUL ends the input (C05). Proved for all other bytes."},
 {"property": "C81", "status": "partial", "theorems": ["GQL.C81_strings_partial", "GQL.C81_refuted"], "note": "Emptiness of a description before schema matters (refuted); proved for all replacements that keep empty strings empty and others non-empty."},
 {"property": "C82", "status": "partial", "theorems": ["GQL.C82_layout", "GQL.C82_order", "GQL.C82_verdict_partial", "GQL.C82_refuted_schema", "GQL.C82_refuted_type"], "note": "Layout: proved, as equality of results. Order: false as stated (C82_refuted_schema: a schema extension before the schema definition escapes the check for repeated root types; C82_refuted_type: of a field added by two extensions only the first is compared with the interface). Proved for every rearrangement that keeps the schema definition and the extensions in order (C82_order, C82_verdict_partial)."},
 {"property": "C83", "status": "partial", "theorems": ["GQL.C83_scan_untouched", "GQL.C83_tokens_untouched", "GQL.C83_untouched", "GQL.C83_rest_partial", "GQL.C83_error", "GQL.C83_shape", "GQL.C83_every_document", "GQL.C83_kinds", "GQL.C83_exact", "GQL.C83_where", "GQL.C83_overwrite_partial", "GQL.C83_safe_iff", "GQL.C83_refuted", "GQL.C83_tokens_refuted"], "note": "False as stated: btos makes strings that are windows on the input. Proved: as long as nothing is written to the buffer, results are as in the rest of this work (C83_untouched); errors, and the shape of a document, never change; exactly which tokens of a text are windows, and that each lies inside its own characters (C83_where, C83_safe_iff), so that white space, comments, rewritten strings and what follows the text may be overwritten (C83_overwrite_partial); and overwriting every byte changes every definition of every accepted document."},
 {"property": "C84", "status": "partial", "theorems": ["GQL.C84_scan", "GQL.C84_parse_partial", "GQL.C84_partial", "GQL.C84_needed", "GQL.C84_refuted_comments", "GQL.C84_refuted_nesting"], "note": "Proved for the parser, for any bytes: nesting k takes at most k+1 nested calls. False as stated for the lexer: Scan calls itself once per comment, so a run of n comments takes n+1 nested calls (C84_scan is exact; C84_refuted_comments); nothing limits the nesting (C84_refuted_nesting)."},
 {"property": "C85", "status": "partial", "theorems": ["GQL.C85_order", "GQL.C85_partial", "GQL.C85_refuted", "GQL.C85_definitions"], "note": "False only for a text that ends in an empty string (C85_refuted); proved for all other texts without NUL, and for the definitions of all accepted documents."},
 {"property": "C86", "status": "partial", "theorems": ["GQL.C86_partial", "GQL.C86_parse", "GQL.C86_parse_length", "GQL.C86_calls", "GQL.C86_refuted", "GQL.C86_refuted_linear"], "note": "Linear bounds for the tokens of an input up to the first EOF or Illegal token, and for Parse (reads of the lexer and steps of the parser); for calls of Scan after Illegal tokens the claim is refuted by a quadratic family (each call alone stays linear). Time is counted in reads and looks at the token; copying of string bytes and Go's runtime are not counted."},
 {"property": "C87", "status": "proved", "theorems": ["GQL.C87_verdict", "GQL.C87_errors", "GQL.C87_distinct_needed"], "note": "Verdict for every renaming; number of errors for documents of operations and fragments. C87_distinct_needed shows that the condition on the renaming is needed."},
 {"property": "C88", "status": "proved", "theorems": ["GQL.C88_monotone", "GQL.C88_relevant", "GQL.C88_directives_needed"], "note": "Acceptance is monotone in the schema, and depends only on type names and directive places. C88_directives_needed shows that the condition on directives is needed."},
 {"property": "C89", "status": "proved", "theorems": ["GQL.C89_together", "GQL.C89_concat", "GQL.C89_without", "GQL.C89_anonymous", "GQL.C89_fragment"], "note": "Exact for putting together; C89_anonymous and C89_fragment show that the conditions are needed."},
 {"property": "C90", "status": "proved", "theorems": ["GQL.C90_tokens", "GQL.C90_errors", "GQL.C90_unexpected", "GQL.C90_refuted"], "note": "For all bytes. C90_refuted: the line break is needed."},
 {"property": "C91", "status": "partial", "theorems": ["GQL.C91_lexer", "GQL.C91_tokens", "GQL.C91_definitions", "GQL.C91_counters_partial", "GQL.C91_sdl_partial", "GQL.C91_refuted_panic", "GQL.C91_refuted_count"], "note": "Positions: all inputs. Counters and ParseSDLDoc: inputs of less than 4 GiB. Beyond that the claim is false of the code: 2^31 schema extensions make ParseSDLDoc panic (negative capacity), and 2^32 anonymous operations pass LoneAnonymousOperation."},
 {"property": "C92", "status": "partial", "theorems": ["GQL.C92_query_partial", "GQL.C92_errors_partial", "GQL.C92_sdl_partial", "GQL.C92_refuted_sdl", "GQL.C92_refuted_query"], "note": "For documents that the printer prints right (DocOk, as in C23). Refuted for the others: list types in SDL and unnamed queries with variables are printed as text that is not GraphQL."},
 {"property": "C93", "status": "proved", "theorems": ["GQL.C93_rules", "GQL.C93_query", "GQL.C93_sdl"], "note": "Exact order of errors for Validate, ValidateSDL and ParseDoc; for ParseSDLDoc up to the order of errors and map entries (Go map iteration is arbitrary). The hypothesis is on parsed documents, as the parser sets the counters."},
 {"property": "C94", "status": "proved", "theorems": ["GQL.C94_query", "GQL.C94_sdl"], "note": "Texts without NUL; strings keep being empty or non-empty (an empty description before schema is overlooked, C81_refuted)."},
 {"property": "C95", "status": "proved", "theorems": ["GQL.C95_sdl", "GQL.C95_query", "GQL.C95_query_errors", "GQL.C95_query_needed", "GQL.C95_distinct_needed"], "note": "C95_query_errors excludes variables in type system definitions; C95_query has no such condition. C95_query_needed and C95_distinct_needed: two of the conditions on names cannot be dropped."},
 {"property": "C96", "status": "partial", "theorems": ["GQL.C96_refuted", "GQL.C96_rings", "GQL.C96_partial"], "note": "C96_refuted is a concrete counterexample; C96_rings: for every document with an extension that adds to a non-empty list, the schema cannot be read after the second call, and a third call never returns; C96_partial: for every other document, any number of calls return, and all schemas are the same."},
 {"property": "C97", "status": "proved", "theorems": ["GQL.C97_kinds", "GQL.C97_used", "GQL.C97_inverse", "GQL.C97_lookup", "GQL.C97_sets", "GQL.C97_tests", "GQL.C97_definitions", "GQL.C97_panics"], "note": "The words are those in the code; the int value is called \"int8 value\" (an artefact in the code, kept)."},
 {"property": "C98", "status": "partial", "theorems": ["GQL.C98_calls", "GQL.C98_buffer", "GQL.C98_prefix_partial", "GQL.C98_disk", "GQL.C98_refuted"], "note": "As stated false: the results of io.WriteString are dropped, so nobody learns of an error (C98_disk: a full disk has the first n bytes, and Fdump returns), and after a failed write the rest is written all the same (C98_refuted: a hole in the text). C98_calls: the calls are the same for every writer and make up the text of Sdump; C98_prefix_partial: a beginning of the text for every writer that takes nothing after an error."},
 {"property": "C99", "status": "partial", "theorems": ["GQL.C99_first", "GQL.C99_returns", "GQL.C99_at_end", "GQL.C99_drained", "GQL.C99_after_document_partial", "GQL.C99_after_error", "GQL.C99_what_is_left", "GQL.C99_next", "GQL.C99_refuted", "GQL.C99_lost"], "note": "Proved for all inputs: every call that does not panic moves on, the text is drained after at most as many calls as it has bytes, and after an error the next call reads on behind the token; what it returns is what Parse makes of the rest of the text on its own, but for positions (C99_what_is_left, C99_next; texts without NUL). That a parser that has returned a document has nothing more is proved for texts without NUL bytes and refuted with one (C99_refuted: the next call returns the text behind the NUL as another document). After a number out of range or a reserved enumeration value one token more is lost (C99_after_error, C99_lost). The state after a panic is not modelled."}
]}

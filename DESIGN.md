# A Lean 4 model of bucketd/go-graphqlparser

Everything is read from the sources in /repo; nothing was run. The model is in `lean/Verif/Model`, the specifications
(written without looking into the model: grammars, the algorithms of the GraphQL specification, what a rule asks for) in
`lean/Verif/Spec`, the property theorems in `lean/Verif/Props`, helper lemmas in `lean/Verif/Proofs`. No Mathlib is used.

Where the code violates a property, the property is kept as stated and marked partial: a theorem `..._refuted` gives a concrete
counterexample in the model, and the theorems `..._exact` / `..._partial` say exactly what does hold.

## Trusted base

* Lean 4.33's kernel and, for each theorem, at most the axioms `propext`, `Classical.choice`, `Quot.sound`; the axioms of each
  theorem are listed with the properties below. No axioms of our own, no compiled evaluation, no `sorry`-like gaps.
* The reading of the Go sources into `Verif/Model`: each definition cites file and lines and says where it simplifies.
* Go library behaviour, modelled by hand from its documentation: `utf8.DecodeRune`, `utf8.RuneLen`, `bytes.Buffer`,
  `strings.Split/Join/Repeat/Replace/Contains`, `strconv.Atoi/Itoa`, `fmt.Sprintf` with %s %d %q-free formats, range over a string,
  maps (association lists; every iteration order is a parameter, constrained only to be a permutation of the entries).
* Parameters, about which nothing is assumed except by explicit hypotheses in the theorems: `strconv.ParseFloat` (`pf`),
  `fmt` %g, `strconv.FormatFloat`, `levenshtein.ComputeDistance`, `strings.ToLower`, `sort.Slice` (assumed to give a permutation
  that is sorted when the comparison is a strict weak order: its documented contract).

## What is modelled

| Code | Model | Remarks |
|---|---|---|
| language/lexer.go, token.go | Model/Utf8, Model/Lexer | all of it; byte = Nat, int = Nat/Int (positions are at most the length of the text plus one, C91); slice or index out of range = explicit outcome `panic`; loops take fuel, and theorems say that the fuel is always enough |
| language/parser.go | Model/Parser, Model/ParseAgain | all of it, over the token stream (the parser's one-token window is a list of tokens); nil dereference = explicit outcome `panic` |
| ast/ast.go | Model/Ast, Model/AstLookup, Model/Suggest | structs as inductive types; a Go linked list is a `List` in the AST (justified by Model/Heap and C25-C27) |
| ast/lists.go, graphql/lists.go | Model/Heap | one generic copy on an explicit heap. The 13 generated list types were compared as text: after renaming the type, the element type, receiver and element variables they are identical, comments aside |
| ast/dumper.go | Model/Dumper, Model/Fdump | all of it; Model/Fdump write by write, for any writer |
| validation/walker.go | Model/Walker | all 69 walk functions, as the sequence of enter/leave events. The 138 `Add...EventHandler` and 138 `On...` functions were checked as text to be regular: each appends to, and ranges over, the handler list of its own name |
| validation/context.go, validation/rules/*.go, validate.go | Model/Context, Model/Rules | all non-empty rules, the pre-walk of the context, reachability of fragments; the empty rules are the identity |
| validation/schema_build.go | Model/Schema | on explicit pointers where sharing matters |
| validation/schema_validate.go, utils.go | Model/SchemaValidate, Model/Utils | unbounded recursion = fuel; theorems say exactly when no fuel is enough |
| validation/errors.go, graphql/errors.go | Model/Errors, Model/Json | messages, marshalling, sorting |
| graphql/builtin.go, graphql/schema.go, graphqlparser.go | Model/Api | the builtin SDL text goes through the modelled parser |
| lab/server/response.go | Model/Response | the response writer |
| (calls from several goroutines) | Model/Conc | ParseDoc, ParseSDLDoc and readers of schemas as programs of single memory accesses; what does not touch shared memory (lexer, parser, rules) is one step with the result of the value model |

Not modelled: `tools/` (code generators), the other programs in `lab/` and `language/out` (examples with no library code), memory
allocation and capacity hints (but for the one that panics when a counter overflows; Model/Machine, C91). Aliasing of token literals with the input buffer (`btos`) is
left out of the model the other properties use and is the subject of C83 (Model/Alias); running time is left out as well, except that C86 (Model/Reads, Model/Steps)
counts the reads of the lexer and the steps of the parser. The code itself starts no goroutines; calls from several goroutines are the subject of C77 (Model/Conc, sequentially consistent memory).

## Tests of the model

`lean/Verif/Conformance` checks the reading of the sources against the repository's own test data, as `example`s evaluated by the kernel. These are
tests on literals and no part of any claim. The model gives the recorded tokens on all 68 golden files of the lexer, the expected errors in 164 of the 167
cases of the rule tests, the three texts of the dumper test back, and the expected results of the tests of types, errors, alternatives, walker, parser and
validation. The three other cases are those of `UniqueOperationNames` that expect an error: the code at this commit cannot give one (the map the rule looks
at stays empty for query documents), so that the repository's test of that rule, which is not enabled, must fail as well; the model agrees with the code.
14 of the rule cases and the longest dumper text as a whole are too long for the kernel and were only evaluated.


## Properties: what is modelled and how each is proved

For every property: its status, how it is proved, and the theorems with the axioms they depend on
(P = propext, C = Classical.choice, Q = Quot.sound, - = none; as printed by `#print axioms`).

* **C01 Scanning always terminates, never panics and reaches end of input** (proved). Fuel-indexed loops; induction on the remaining input: the result is never `oof` or `panic`.
  Theorems: C01_scan_returns [PCQ], C01_tokens_end [PCQ].
* **C02 Every scanned token makes progress** (proved). The same induction: the position strictly increases and stays within the input.
  Theorems: C02_progress [PCQ].
* **C03 Tokens are the ones the GraphQL lexical grammar prescribes** (proved). Independent lexical grammar over characters (Spec/Lex); simulation lexeme by lexeme; the grammar is deterministic.
  Exact on every NUL-free text against the lexical grammar with the code's own block strings (GoBlock); against the specification's block strings where every block string is free of CR, control characters and double backslashes.
  Theorems: C03_tokens [PCQ], C03_deterministic [PCQ], C03_spec_complete [PCQ], C03_spec_sound [PCQ].
* **C04 Name tokens are GraphQL names** (partial). Corollary of C03 on NUL-free text; byte-level statement for all inputs; witnesses for the failures.
  Holds for NUL-free valid UTF-8; false in general: NUL and stray bytes get into names (C04_refuted).
  Theorems: C04_name_partial [PCQ], C04_name_bytes [PCQ], C04_refuted [P].
* **C05 Nothing after an early end-of-input marker is silently dropped** (partial). Invariant over the scan that EOF is only returned at the end or at a zero byte. C05_dropped: the lexer on a text ending in a line break runs in step with the lexer on the same text with NUL and anything after it (Proofs/LexPrefix, LexPrefixStr, LexNul); lifted to Parse by the exact grammar (C15_exact_partial).
  Holds for inputs without a zero byte; false in general: C05_dropped shows exactly what happens after a line break and a NUL byte: everything that follows is ignored, whatever it is. C05_refuted_comment: a NUL inside a comment ends the comment.
  Theorems: C05_eof_partial [PCQ], C05_refuted [P], C05_dropped [PCQ], C05_refuted_parse [PCQ], C05_refuted_comment [P].
* **C06 String escapes decode to the characters they denote** (proved). Decoder over characters in Spec; both passes of scanString are related to it.
  Both directions, on every NUL-free text.
  Theorems: C06_strings [PCQ].
* **C07 Block strings get the value the specification's BlockStringValue algorithm gives** (partial). BlockStringValue transcribed from the specification; equality on the content where the code agrees; witnesses otherwise.
  Exact characterisation of what the code does; equals the specification on block strings without CR, control characters and double backslashes; refuted otherwise.
  Theorems: C07_blocks [PCQ], C07_blocks_partial [PCQ], C07_refuted_crlf [PQ], C07_refuted_backslash [PQ], C07_refuted_cr [PQ].
* **C08 Token line numbers are right** (partial). Ghost count of line breaks consumed; invariant over Scan. Spec/GoPos says how the code counts lines and columns, Proofs/LexPos that it does, for every text without NUL.
  Right for LF-only texts and CRLF/CR texts whose tokens are on one line; refuted for mixed line ends and CRLF in block strings. C08_exact gives the line of every token (and of EOF) for every text without NUL, C08_right_iff says when it is right.
  Theorems: C08_lines_partial [PCQ], C08_lines_crlf_partial [PCQ], C08_refuted [P], C08_refuted_block [P], C08_exact [PCQ], C08_right_iff [PCQ].
* **C09 Token columns are right** (partial). Ghost count of characters since the last line break; invariant over Scan. Exact counting as for C08.
  Right for LF-only texts with one-line tokens not ending in an empty string; refuted otherwise. C08_exact gives the column of every token (and of EOF) for every text without NUL, C08_right_iff says when it is right.
  Theorems: C09_columns_partial [PCQ], C09_refuted_crlf [P], C09_refuted_block [P], C09_refuted_empty [P], C08_exact [PCQ], C08_right_iff [PCQ].
* **C10 UTF-8 encoding and decoding are inverse** (proved). Arithmetic on code points; case analysis on the length of the encoding.
  Theorems: C10_decode_encode [PCQ], C10_injective [PCQ], C10_read [PCQ], C10_invalid [PCQ].
* **C100 What an error tells** (proved). The errors of the walk are those of the rules (C29), and each kind is made by `newError` with a message that begins with a text; an invariant of the context through `PrepareContextSDL` and every loop of `ValidateSchema`. The JSON comes from C60_exact. Two concrete texts have the same errors.
  Proved as stated, as the exact behaviour; C100_refuted is the concrete pair of texts with equal errors (what a user would hope for, a location, is never there: TODO in validation/errors.go). Errors of the lexer and parser are not in this list; see C76.
  Theorems: C100_query [PCQ], C100_sdl [PCQ], C100_json [PCQ], C100_refuted [P].
* **C101 A call has exactly one outcome** (proved). Case distinction over both functions; that `ValidateSchema` leaves the schema of the context alone is an invariant of all its loops. A corollary relates the syntax errors of the three entry points.
  For every call that returns. When a call returns is the subject of C13, C14, C53 and C62.
  Theorems: C101_query [P], C101_sdl [P], C101_syntax [P].
* **C11 Ignored characters never change the meaning** (proved). From C03: the lexical grammar drops ignored characters; parsing depends on kinds and literals only (a simulation over the grammar).
  Theorems: C11_tokens [PCQ], C11_document [PCQ], C11_removal [PCQ].
* **C12 Parse never panics** (partial). Induction over the parser with an exact condition for the panicking path.
  The code violates the property: a fragment keyword not followed by a name crashes Parse (C12_refuted). The panics are characterised exactly; everything else is free of panics.
  Theorems: C12_refuted [P], C12_panics_iff_partial [PCQ], C12_no_panic_partial [PCQ].
* **C13 Parse always terminates** (proved). Fuel bound by the number of tokens; nesting bounds the recursion.
  Theorems: C13_terminates [PCQ], C13_depth [PCQ].
* **C14 Everything in the grammar is accepted, with the AST it denotes** (proved). Grammar as inductive difference-list relations (Spec/Grammar); completeness by induction on derivations.
  Theorems: C14_complete [PCQ], C14_text [PCQ].
* **C15 Everything accepted is in the grammar, and means what the AST says** (partial). Soundness by induction on fuel against the grammar the code implements; the difference to the specification's grammar is stated and proved exact.
  The code accepts more than the specification's grammar. Proved: exactly what it accepts (C15_exact_partial), and an exact criterion for an accepted text to be in the grammar of the specification (C15_strict_partial); counterexamples for each kind of deviation.
  Theorems: C15_exact_partial [PCQ], C15_strict_partial [PCQ], C15_unambiguous [PCQ], C15_refuted_parens [PCQ], C15_refuted_const [PCQ], C15_refuted_cond [PCQ], C15_refuted_implements [PCQ], C15_refuted_extension [PCQ].
* **C16 Malformed list types are rejected** (partial). Types: exact grammar of what is accepted.
  False of the code (C16_refuted): parseType drops the error inside a bracket. Exact on types without missing element type.
  Theorems: C16_refuted [P], C16_refuted_unclosed [P], C16_types_partial [PCQ].
* **C17 Document counters equal the number of definitions of each kind** (proved). Induction over the loop that counts.
  counters are unbounded naturals in the model (int32 in the code)
  Theorems: C17_counters [PCQ].
* **C18 Definitions carry the position of their first token** (proved). By the grammar relation, which carries the first token.
  Theorems: C18_locations [PCQ].
* **C19 Integers in the AST are exactly the integers written** (proved). Correctness of Atoi on the digits of the token; overflow rejected.
  Theorems: C19_integers [PCQ], C19_overflow [PCQ].
* **C20 A failed Parse returns no partial document, and the error names a real token** (partial). Induction over the parser: error states quote a token of the stream.
  a missing value gives an error that quotes no token (C20_refuted); all other errors quote a token of the input
  Theorems: C20_refuted [P], C20_errors_partial [PCQ].
* **C21 Directive locations recorded by the parser are where the directive stands** (proved). The grammar relation carries the location.
  Theorems: C21_directive_locations [PCQ].
* **C22 Directive location sets survive parsing and printing** (proved). Finite table plus induction on the list of locations.
  Theorems: C22_names_bits [P], C22_mask [PQ], C22_parse [PCQ].
* **C23 Printing and re-parsing gives the same document** (partial). The printed text lexes to a derivation of the document (mutual induction over the AST), and C14 closes the loop.
  The claim as stated is false of the code: seven witnesses (anonymous query with variables, list types of fields and arguments, three quotes in a description, a carriage return in a string, a non-null type condition, floats printed without a point, a list type without item type). Proved for every clean input whose document is DocOk (Spec/Dump.lean): printing returns a text that parses to the same document up to locations. fmt %g and ParseFloat are arbitrary parameters.
  Theorems: C23_partial [PCQ], C23_refuted_query [P], C23_refuted_list [P], C23_refuted_description [P], C23_refuted_string [P], C23_refuted_condition [P], C23_refuted_float [PCQ], C23_refuted_panic [P].
* **C24 String values survive printing** (partial). Exact: escape and unescape on every character; lines of block strings.
  The claim as stated is false of the code: eight witnesses (C24_refuted). C24_exact: a UTF-8 string without NUL reads back, at any nesting depth, if and only if it is StrOk (Spec/Dump.lean).
  Theorems: C24_exact [PCQ], C24_partial [PCQ], C24_refuted [P].
* **C25 Linked lists behave like sequences** (partial). Representation predicate on the heap, refinement of histories by induction.
  all histories of Add/Reverse/Join/Insert/FromSlice on any number of list variables refine sequences, except Join on a nil receiver, which the code ignores (C25_refuted)
  Theorems: C25_histories_partial [PCQ], C25_refuted [P], C25_join_nil [P], C25_operations [PCQ].
* **C26 List operations leave other lists alone** (proved). Frame theorems for the representation predicate.
  frame theorems on the heap model
  Theorems: C26_add [PCQ], C26_reverse [PCQ], C26_join [PCQ], C26_insert [PCQ].
* **C27 Generators enumerate the list, and Reset restarts them** (partial). Invariant of the generator over all call sequences.
  exact behaviour for every sequence of Next/Reset; Reset is broken in the code (Generator never stores the original list)
  Theorems: C27_exact [PQ], C27_next_partial [PQ], C27_refuted [PQ].
* **C28 The walker visits every node once, in document order, properly nested** (partial). The event trace equals the traversal of an independent rose-tree view of the document; counting, nesting and order follow by induction.
  every node once, nesting and handler order are proved for all documents; source order is proved for all documents except those with an input value that has a default and directives or a type extension with interfaces and directives, where it is false (C28_order_refuted)
  Theorems: C28_trace [PQ], C28_once [PQ], C28_nested [PQ], C28_handlers [PQ], C28_order_partial [PQ], C28_order_executable [PQ], C28_order_refuted [P].
* **C29 Errors do not depend on rule interaction** (proved). Rules commute with the fold over events (independent state components).
  All rules of the code that register handlers, any list of them, any document and schema. In ValidateSDL the errors that are there before any rule (repeated definitions) are counted once. UniqueOperationTypes may be given once only (it keeps flags in the context).
  Theorems: C29_query [PCQ], C29_sdl [PCQ].
* **C30 Only executable definitions in a query document** (proved). A rule is a fold over events; its errors are characterised through the nodes of the document (Spec/Nodes).
  Exact multiset of errors, for every document (parsed or not); C39_errors_partial combines the rules for ParseDoc.
  Theorems: C30_query [PCQ], C39_errors_partial [PCQ].
* **C31 An anonymous operation must be alone** (proved). As C30, with the counters of C17.
  For every document whose counter is right; parsed_counts shows that every parsed document is such.
  Theorems: C31_query [PCQ], parsed_counts [PCQ].
* **C32 Referenced type names are known** (proved). As C30.
  Exact multiset of errors, query and SDL documents.
  Theorems: C32_query [PCQ], C32_sdl [PCQ].
* **C33 Variables are reported as unused exactly when they are** (partial). Depth-first search over fragments terminates and visits exactly the reachable ones; errors from that.
  Termination and the exact set of reported variables for every document. The property as stated fails for documents with variables inside type-system definitions (C33_refuted; such documents are rejected by another rule anyway); C33_partial is the property for all other documents.
  Theorems: C33_exact [PCQ], C33_partial [PCQ], C33_refuted [PQ].
* **C34 Recursively referenced fragments are the reachable ones** (proved). The depth-first search theorem.
  Definitions are identified with their position; cycles included.
  Theorems: C34_query [PCQ].
* **C35 Directives are known and in place** (proved). As C30.
  Exact multiset of errors.
  Theorems: C35_query [PCQ], C35_sdl [PCQ].
* **C36 Duplicate directives at one location are reported** (proved). As C30, with multiplicities.
  Exact multiset of errors; Spec.repeated has each name count-1 times (repeated_count).
  Theorems: C36_query [PCQ], C36_sdl [PCQ].
* **C37 Duplicate argument names are reported** (proved). As C30, with multiplicities.
  Exact multiset of errors.
  Theorems: C37_query [PCQ], C37_sdl [PCQ].
* **C38 Duplicate input object fields are reported** (proved). As C30, with multiplicities.
  Exact multiset of errors.
  Theorems: C38_query [PCQ], C38_sdl [PCQ].
* **C39 ParseDoc accepts exactly the documents that satisfy the enabled rules** (partial). Composition of the rule theorems over the list of enabled rules.
  Acceptance is proved for every text and schema. The second half holds unless the parser panics (C39_refuted, see C12).
  Theorems: C39_accepts [PCQ], C39_otherwise_partial [PCQ], C39_errors_partial [PCQ], C39_refuted [P].
* **C40 Type, directive and schema definitions are unique** (proved). Invariants of the pre-walk over association-list maps.
  Errors and the definitions that win, for every document and schema.
  Theorems: C40_sdl [PCQ].
* **C41 Directive arguments in SDL are known** (partial). As C30, with the broken generator of C27 inside the handler.
  Refuted: from the second argument on, every argument is reported (Generator.Reset). Exact characterisation, and the property for directives with at most one argument.
  Theorems: C41_exact [PCQ], C41_partial [PCQ], C41_refuted [PCQ].
* **C42 Required directive arguments are provided** (proved). As C30.
  Exact multiset of errors.
  Theorems: C42_sdl [PCQ].
* **C43 Extensions extend existing types of the same kind** (proved). As C30.
  Exact multiset of errors.
  Theorems: C43_sdl [PCQ].
* **C44 Exactly the names beginning with two underscores are refused** (partial). As C30; the byte test characterised exactly.
  Refuted by _id and a_b. Exact characterisation, and the property where no name has an underscore in exactly one of the first two places.
  Theorems: C44_exact [PCQ], C44_partial [PCQ], C44_refuted [PQ].
* **C45 Root operation types are defined at most once** (partial). State machine over the schema definitions and extensions; exact result by induction.
  Refuted by a schema extension before the schema definition. Exact characterisation, and the property with the definition first.
  Theorems: C45_exact [PCQ], C45_partial [PCQ], C45_refuted [PCQ].
* **C46 The built schema contains exactly the document's types and directives plus the built-ins** (proved). Fold over maps; lookup characterised.
  Every text; base schema nil. Holds for whatever ParseSDLDoc returns as schema.
  Theorems: C46 [PCQ].
* **C47 Extensions contribute all their members** (partial). Fold over extensions; exact members.
  As stated the property is false: members of an extension are dropped when the definition has none of that kind (C47_refuted), and schema extensions without schema definition are ignored (C47_refuted_schema). C47_exact says exactly what happens for every document; C47_partial is the property under the condition that excludes those cases.
  Theorems: C47_exact [PCQ], C47_partial [PCQ], C47_refuted [P], C47_refuted_schema [P].
* **C48 Extending a schema keeps what it had** (partial). Exact result of building over an existing schema.
  As stated false: extending a schema replaces its types and directives and resets the query type, and no schema with a type Query can be extended at all (C48_refuted). C48_exact characterises the result for every document and schema.
  Theorems: C48_exact [PCQ], C48_partial [PCQ], C48_refuted [PCQ].
* **C49 A failed extension leaves the caller's schema untouched** (partial). Sharing between the caller's schema and the result, on explicit pointers.
  As stated false: when ValidateSchema rejects, the caller's schema has already been overwritten (C49_refuted). C49_exact says exactly when it is changed and to what.
  Theorems: C49_exact [PCQ], C49_partial [PCQ], C49_refuted [P].
* **C50 Root types are checked** (proved). Exact list of errors of ValidateSchema.
  For every well-formed schema on which ValidateSchema returns (see C53): the errors about root types are exactly the specified ones; C50_all_errors gives the complete list of errors.
  Theorems: C50 [PCQ], C50_all_errors [PCQ].
* **C51 Field and argument types are of the right sort** (partial). Part of the exact list of errors.
  Exact list of the errors about types of fields and arguments. False as stated: Int, Float and Boolean are not among the built-in types, so a field of type Int is reported (C51_refuted).
  Theorems: C51_exact [PCQ], C51_wrappers [-], C51_refuted [P].
* **C52 Subtyping follows the specification** (partial). Subtype relation of the specification as an inductive predicate; decided by induction on types; exact condition for non-termination.
  Exact: returns iff the comparison is not stuck, and then decides the specification. As stated it is refuted: on an object type that is not a possible type of an abstract type it runs for ever.
  Theorems: C52_exact [PCQ], C52_partial [PCQ], C52_reflexive [PQ], C52_pointers [PCQ], C52_transitive [P], C52_refuted [PCQ].
* **C53 Validation terminates** (partial). Fuel monotonicity, and an exact condition under which some fuel suffices.
  ValidateSchema (C53_exact) and ParseSDLDoc (C53_document, C53_early) return iff the schema is complete and settled; refuted as stated by a concrete schema and a concrete text (C53_refuted, C53_refuted_document).
  Theorems: C53_exact [PCQ], C53_hangs [PCQ], C53_refuted [PCQ], C53_document [PCQ], C53_early [PCQ], C53_refuted_document [PCQ].
* **C54 Objects provide what their interfaces promise** (partial). Corollary of the exact list and C52.
  Exact when the comparisons end; refuted as stated since ValidateSchema hangs.
  Theorems: C54_partial [PCQ], C54_refuted [PCQ].
* **C55 Names in a schema are valid** (proved). Exact on all byte strings.
  validateName for every byte string; and which names of a schema are checked.
  Theorems: C55 [PCQ], C55_iff [PCQ], C55_schema [PCQ].
* **C56 The set of reported errors does not depend on map iteration order** (partial). Everything is shown invariant, up to permutation, under the iteration order.
  ValidateSchema and ParseSDLDoc: same result up to the order of errors and of map entries for every iteration order. False for BuildSchema called on a document that ValidateSDL rejects (C56_refuted_build).
  Theorems: C56_validate [PCQ], C56_document [PCQ], C56_refuted_build [P].
* **C57 OrList formats at most five items and never reads out of range** (proved). Induction on the list, with indexing made explicit.
  All lists; indexing and slicing out of range are panics in the model.
  Theorems: C57 [PQ].
* **C58 QuotedOrList does not modify its argument** (partial). Slices with explicit backing store.
  False as stated: QuotedOrList writes the quotation marks into the caller's slice, for every non-empty slice.
  Theorems: C58_partial [P], C58_refuted [PQ].
* **C59 Suggestions are exactly the close options, nearest first** (proved). Selection and sorting with parameters.
  For every lower-casing and edit distance (parameters) and every sort.Slice that keeps its documented contract.
  Theorems: C59 [PCQ].
* **C60 Errors marshal to well-formed JSON** (partial). JSON grammar as a relation; the written text derives it. Exactness: a text that stands for what was written as it is can have no escapes (the text runs ahead of what it stands for and never gets back), composed over objects and arrays (Proofs/JsonRead).
  False as stated: messages are not escaped, so any message that quotes a name gives malformed JSON (C60_refuted; C60_refuted_document for an error that ParseDoc returns). C60_exact: the JSON says what it should if and only if message and path strings need no escapes and no column is negative.
  Theorems: C60_exact [PCQ], C60_partial [PCQ], C60_refuted [PCQ], C60_refuted_document [PCQ].
* **C61 SortErrors is a canonical ordering** (proved). Permutation and sortedness; lexicographic order.
  The order is decreasing when the list is gone through with ForEach (SortErrors builds it with Add).
  Theorems: C61_sorted [PCQ], C61_canonical [PCQ].
* **C62 ParseSDLDoc never panics** (partial). Panic-freedom of the stages; witness.
  As stated false: a list type without item type is accepted by the parser and makes ParseSDLDoc panic. C62_partial: no panic otherwise, given that the parser does not panic (C14).
  Theorems: C62_partial [PCQ], C62_refuted [P].
* **C63 Two operations never share a name in an accepted document** (partial). Corollary of C39 and the rule as written.
  False as stated: the rule is not enabled (C63_refuted), and would find nothing if it were (C63_rule); in ValidateSDL it would report every repetition (C63_sdl). C63_partial: the empty name is never shared.
  Theorems: C63_refuted [P], C63_partial [PCQ], C63_rule [PCQ], C63_sdl [PCQ].
* **C64 Looking up an enumeration value or a field by name** (partial). The loop over the generator, exactly.
  Exact behaviour proved. The claim holds for fields and for values that exist; it fails for values that do not exist: the call never returns (C64_refuted), and the empty name is reported as found (C64_refuted_empty).
  Theorems: C64_enum [PCQ], C64_field [PQ], C64_refuted [PCQ], C64_refuted_empty [PCQ].
* **C65 An accepted schema is a valid schema** (partial). Independent predicate for valid schemas; equivalence with what is checked.
  SoundSchema (what the code checks, stated independently) holds of every returned schema, and decides the outcome. Thirteen requirements of the specification are not checked: C65_refuted has a witness for each.
  Theorems: C65_partial [PCQ], C65_exact [PCQ], C65_refuted [PQ].
* **C66 The text of a type reference is that type reference** (partial). Induction on types; lexing of the text.
  Proved for all types with proper names whose lists have an item type; the parser also accepts broken list types (C15), for which it fails: C66_refuted.
  Theorems: C66_reads [PCQ], C66_injective [PCQ], C66_refuted [P].
* **C67 A response is written as JSON that says the same** (partial). Induction on response values against the JSON relation; exactness as for C60.
  When a response is written is proved exactly. C67_exact: the text says the same if and only if strings and names need no escapes and floats are finite; so the claim is false (C67_refuted). strconv.FormatFloat is a parameter; C67_exact assumes of it that it gives a decimal number, NaN, +Inf or -Inf.
  Theorems: C67_returns [PQ], C67_exact [PCQ], C67_partial [PCQ], C67_refuted [PCQ].
* **C68 Token positions count from one and go forward** (partial). Invariant over Scan on line and column, for arbitrary bytes; definitions from the grammar relation.
  Lines: proved in full. Columns: false for an empty string that ends the input and for Illegal tokens (witnesses); proved for every other token of every input. Definitions of accepted documents: proved in full.
  Theorems: C68_lines [PCQ], C68_partial [PCQ], C68_definitions [PCQ], C68_refuted_empty [P], C68_refuted_zero [P].
* **C69 The verdict on a query document depends neither on its layout nor on the order of its definitions** (proved). Rule characterisations depend only on the multiset of definition bodies (questions that are blind to places and locations).
  C69_errors (same messages up to order) excludes documents with variables in type-system definitions; C69_verdict has no such condition.
  Theorems: C69_verdict [PCQ], C69_errors [PCQ], C69_layout [PCQ].
* **C70 An accepted query document is a valid document** (partial). Independent predicates for the specification's requirements; equivalence with those that are checked; a witness for each of the others.
  C70_partial: acceptance iff the text parses and the eight implemented requirements hold. C70_refuted: for each of eighteen further requirements of the specification an accepted document that violates it.
  Theorems: C70_partial [PCQ], C70_refuted [P].
* **C71 Documents can be put one after the other** (partial). Frame theorem over the grammar relation (a derivation up to the end of the input remains one when more follows), and lexing of the concatenation.
  True of all pairs whose first document ends with an operation or fragment (C71_queries); in general with two exceptions (C71_partial), each with a counterexample: a definition with omitted braces before '{', which the grammar of the specification excludes too, and '[' at the end of a text, which the code takes for a type.
  Theorems: C71_partial [PCQ], C71_queries [PCQ], C71_refuted_brace [P], C71_refuted_bracket [P].
* **C72 Formatting is idempotent and tells documents apart** (partial). From C23, since what is printed depends on the bodies of the definitions only.
  For the documents of C23_partial (DocOk); C72_refuted: the indentation in a multi-line string changes each time.
  Theorems: C72_idempotent_partial [PCQ], C72_exact_partial [PCQ], C72_refuted [P].
* **C73 Types are classified by the kind of what they name** (proved). Case analysis on the type reference, with the specification of each predicate from Proofs/Subtype.lean; the fold of InterfaceImplementations is read back by lookup, for any order of the map.
  All for every schema (C73_kinds: every schema without a type of empty name, which no build makes).
  Theorems: C73_input [PCQ], C73_output [PCQ], C73_sorts [PCQ], C73_kinds [PQ], C73_member [PQ], C73_possible [PCQ].
* **C74 Schemas share no mutable state** (proved). Pointer-level model of the structs, list nodes and maps (Model/HeapBuild.lean), refined to the value-level model: a representation invariant (each live struct field owns its nodes, two schemas share at most the two global structs, whose lists are nil so that Join does nothing) is preserved by allocation, merging and building; induction over the history.
  Reading steps (ValidateSDL, ValidateSchema) work on the value that is read out of the memory; definitions are allocated when BuildSchema begins.
  Theorems: C74_histories [PCQ], C74_others [PCQ], C74_globals [PCQ], C74_readable [PCQ].
* **C75 A lexical error says what is wrong** (proved). Spec/LexError.lean gives the messages as an inductive relation on texts; each shape is followed through the scanners (forward), and every text at which no token begins has a shape (totality, by induction on the text); determinism of the grammar links it to the token list.
  Texts are sequences of Unicode scalar values without NUL. Go's %q is modelled exactly up to U+007F; above that every character is taken to be printable.
  Theorems: C75_message [PCQ], C75_total [PCQ], C75_unique [PCQ], C75_illegal [PCQ].
* **C76 A syntax error says what was found and what would have been right there** (partial). Texts of the errors: Model/ParseError against the messages of Spec/SyntaxError; requests by a pass over all parser functions (Proofs/ParseWants). Locality and "wanted": a relation between the run on one token list and the run on another that agrees with it up to the offending token, closed under sequencing, branching and loops, proved for every parser function (Proofs/ParseLocal*). Partial: after a description, the error asks for operations and fragments although they would be refused (refuted).
  Text and locality proved in full. C76_asks_partial: with a token that the error asks for, parsing goes on beyond it; excluded: what is asked for after a description (an operation or fragment after a string is refused by an error that asks for it, C76_asks_false), the request Name '!on', which is made one token too late (C76_fragment_name_false), and 'NamedType', which names no token. The error for a missing value does not say what is wrong (C76_value_false).
  Theorems: C76_text [PCQ], C76_requests [PQ], C76_local [PCQ], C76_asks_partial [PCQ], C76_asks_false [PQ], C76_fragment_name_false [P], C76_value_false [P].
* **C77 Calls from several goroutines** (proved). Model/Conc: the calls as programs of single reads, writes and allocations over a memory of cells (structs, list nodes, maps), interleaved in any way. A separation logic (Proofs/ConcLogic: assertions closed under larger memories, frame rule) gives each call a triple that relates it to the value model (Proofs/ConcLists, ConcBuild, ConcCalls); the invariant assigns every cell to the globals, a schema or a running goroutine (Proofs/ConcInv). Spec/Concurrent: the rule for callers, data races, calls one after the other. Sequential consistency is assumed of programs without data races (Go memory model).
  The memory is sequentially consistent and accesses are to whole cells; ParseDoc reads everything its schema points to and then works on the value (no cell of the schema is written while the call runs, by C77_one_after_the_other). C77_careless_race shows that the rule for callers is needed.
  Theorems: Conc.C77_no_race [PCQ], Conc.C77_one_after_the_other [PCQ], Conc.C77_outcome [PCQ], Conc.C77_no_blocking [PCQ], Conc.C77_calls_end [-], Conc.C77_careless_race [PQ].
* **C78 What a rule can look up in its context** (proved). the contexts reached by any prefix of the walk agree with the first one but for errors and flags (Proofs/Asked, base_during); the maps of that one are computed by induction over the definitions (PrepareContextSDL) or nodes (NewContext).
  The code as it is also counts variables of type-system definitions that follow an executable one (Spec.UsesAround, as in C33); in Validate the lookup of a type or directive panics, as there is no SDL context (part of C78_query).
  Theorems: C78_sdl [PCQ], C78_query [PCQ], C78_exists [PCQ].
* **C79 A syntax error is at the first wrong token** (partial). Proofs/ParseVia: for every parsing function, runs stay in the grammar when followed by something else, a failing run has read something that can be completed with names and punctuators, but for the listed dead ends (closed under bind, alternatives and the loops); with the locality of errors (C76) this is about the token of the error. Proofs/LexCut: cutting the text before that token keeps the tokens before it, and the completion can be written after a line break. The three dead ends are shown to be hopeless by inversion of the grammar.
  For every text without NUL: the error is about a token such that no text with it at that place is accepted (FailsAt). The text before it can be completed to an accepted text, or it cannot, and then the error came late in one of the three ways of Late (C79_alternative); there the claim is false (C79_false_*). Late describes the tokens before the error only, so that it is also true of some texts that can be completed (schema{query:Q} type A{query:[T).
  Theorems: C79_first_wrong_partial [PCQ], C79_alternative [PCQ], C79_false_fragment [PCQ], C79_false_condition [PCQ], C79_false_root [PCQ].
* **C80 Bytes that are not UTF-8 are read as U+FFFD** (partial). Spec/Repair gives the text of any bytes (each byte that begins no character is U+FFFD; total and unique). A simulation of the lexer on the bytes by the lexer on the text, function by function (Proofs/LexTwin*), then Proofs/ParseStr for documents. False without conditions: a stray byte at the very end is overlooked, and CR, stray byte, LF in a block string lose a line terminator; NUL ends the input (C05). Proved without these.
  False as stated in two corners (refuted with witnesses): a stray byte at the very end of the input is overlooked, and CR, stray byte, LF within a block string lose a line terminator; NUL ends the input (C05). Proved for all other bytes.
  Theorems: C80_text [PCQ], C80_text_utf8 [-], C80_tokens_partial [PCQ], C80_parse_partial [PCQ], C80_refuted_end [PCQ], C80_refuted_accepts [P], C80_refuted_block [P].
* **C81 Parsing does not look into strings** (partial). Proofs/ParseStr: each production of the grammar of Spec/Grammar carries over to tokens with other strings; with C15 (the parser accepts exactly this grammar) and C03 (the tokens of a text). Emptiness matters for a description before `schema`: refuted without that condition.
  Emptiness of a description before schema matters (refuted); proved for all replacements that keep empty strings empty and others non-empty.
  Theorems: C81_strings_partial [PCQ], C81_refuted [P].
* **C82 What ParseSDLDoc makes of a document depends neither on its layout nor on the order of its definitions** (partial). Layout: no SDL rule and no later step looks at the document of the context or at the location of a definition, so a walk over documents with the same bodies is the same walk (Props/C82); with C11. Order: the multiset of errors (Spec/RuleErrors) and the schema that is built (Spec/Build) are the same for rearranged definitions. False for the schema definition and for extensions, which therefore keep their order: two refutations.
  Layout: proved, as equality of results. Order: false as stated (C82_refuted_schema: a schema extension before the schema definition escapes the check for repeated root types; C82_refuted_type: of a field added by two extensions only the first is compared with the interface). Proved for every rearrangement that keeps the schema definition and the extensions in order (C82_order, C82_verdict_partial).
  Theorems: C82_layout [PCQ], C82_order [PCQ], C82_verdict_partial [PCQ], C82_refuted_schema [P], C82_refuted_type [P].
* **C83 What Scan and Parse return does not change when the caller reuses the input buffer** (partial). Model/Alias, Model/AliasAst, Model/AliasParser: lexer and parser once more, with strings that are windows on the input buffer or copies. Proofs/Alias, Proofs/AliasParse: read with the buffer untouched, they are the lexer and parser of the other properties (which discharges the assumption that strings are values). The claim is false: refuted, with the exact set of strings that are safe, and a proof that overwriting the buffer changes every definition of every accepted document (Proofs/AliasTouch). Spec/Shared says which tokens of a source text are not copied; Proofs/AliasWhere follows the lexical grammar once more to show it.
  False as stated: btos makes strings that are windows on the input. Proved: as long as nothing is written to the buffer, results are as in the rest of this work (C83_untouched); errors, and the shape of a document, never change; exactly which tokens of a text are windows, and that each lies inside its own characters (C83_where, C83_safe_iff), so that white space, comments, rewritten strings and what follows the text may be overwritten (C83_overwrite_partial); and overwriting every byte changes every definition of every accepted document.
  Theorems: C83_scan_untouched [PCQ], C83_tokens_untouched [PCQ], C83_untouched [PCQ], C83_rest_partial [PCQ], C83_error [PCQ], C83_shape [PCQ], C83_every_document [PCQ], C83_kinds [PQ], C83_exact [PQ], C83_where [PCQ], C83_overwrite_partial [PCQ], C83_safe_iff [PCQ], C83_refuted [P], C83_tokens_refuted [P].
* **C84 How deep the calls are nested** (partial). Model/Stack: lexer and parser with room for a given number of nested calls (the fuel of the model). Proofs/Depth, Proofs/DepthParse: a relational Hoare logic for the parser shows that the result is the same for any two bounds beyond the nesting. Proofs/DepthLex: Scan needs exactly one call more than there are comments ahead (refutes the claim for comments). Proofs/DepthNeed: a deep document needs as much room.
  Proved for the parser, for any bytes: nesting k takes at most k+1 nested calls. False as stated for the lexer: Scan calls itself once per comment, so a run of n comments takes n+1 nested calls (C84_scan is exact; C84_refuted_comments); nothing limits the nesting (C84_refuted_nesting).
  Theorems: C84_scan [PCQ], C84_parse_partial [PCQ], C84_partial [PCQ], C84_needed [P], C84_refuted_comments [PCQ], C84_refuted_nesting [PCQ].
* **C85 A line and a column name one token** (partial). Proofs/PosOrder: every step of the counting of Spec/GoPos leads to a later place, tokens to a strictly later one (except an empty string at the end); lifted to tokens by C08_exact and to definitions by the grammar (C15, C18).
  False only for a text that ends in an empty string (C85_refuted); proved for all other texts without NUL, and for the definitions of all accepted documents.
  Theorems: C85_order [PCQ], C85_partial [PCQ], C85_refuted [P], C85_definitions [PCQ].
* **C86 Reading and parsing take time proportional to the input** (partial). Model/Reads: the lexer with a count of its reads; Proofs/Reads: same tokens, reads bounded by the bytes passed (an amortised bound, with the second pass of strings and the steps back). Model/Steps: the parser that holds one token, calls Scan and counts what it does; Proofs/Steps, Proofs/StepsParse: a simulation with Model/Parser in which every function has a bound on its steps that each token pays for. Refuted for calls of Scan after Illegal tokens (quadratic family).
  Linear bounds for the tokens of an input up to the first EOF or Illegal token, and for Parse (reads of the lexer and steps of the parser); for calls of Scan after Illegal tokens the claim is refuted by a quadratic family (each call alone stays linear). Time is counted in reads and looks at the token; copying of string bytes and Go's runtime are not counted.
  Theorems: C86_partial [PCQ], C86_parse [PCQ], C86_parse_length [PCQ], C86_calls [PCQ], C86_refuted [PQ], C86_refuted_linear [PQ].
* **C87 Renaming in a query changes nothing** (proved). Spec/Rename: a renaming of documents; Proofs/Rename: the specified errors of the renamed document (Spec/RuleErrors) are as many, rule by rule (the nodes of the renamed document are the renamed nodes, reachability and uses of variables are preserved by injective renamings); lifted to ParseDoc by C39 and to orders and layouts by C69.
  Verdict for every renaming; number of errors for documents of operations and fragments. C87_distinct_needed shows that the condition on the renaming is needed.
  Theorems: C87_verdict [PCQ], C87_errors [PCQ], C87_distinct_needed [P].
* **C88 A query stays valid when the schema grows** (proved). From C70 (acceptance is SoundQuery), each requirement is monotone in the schema. C88_directives_needed: a schema that redefines skip.
  Acceptance is monotone in the schema, and depends only on type names and directive places. C88_directives_needed shows that the condition on directives is needed.
  Theorems: C88_monotone [PCQ], C88_relevant [PCQ], C88_directives_needed [P].
* **C89 Accepted query documents can be put together and taken apart** (proved). From C70; the nodes of the joint document are those of the parts (C69), fragments of a part are fragments of the whole, so uses of variables stay uses; C71 for texts one after the other. C89_anonymous and C89_fragment show that the conditions are needed.
  Exact for putting together; C89_anonymous and C89_fragment show that the conditions are needed.
  Theorems: C89_together [PCQ], C89_concat [PCQ], C89_without [PCQ], C89_anonymous [P], C89_fragment [P].
* **C90 What follows a complete line does not change what came before it** (proved). Step-by-step comparison of the lexer on a text ending in a line break and on the text with more bytes (Proofs/LexPrefix, LexPrefixStr); errors by C76_local. C90_refuted: without the line break it is false.
  For all bytes. C90_refuted: the line break is needed.
  Theorems: C90_tokens [PCQ], C90_errors [PCQ], C90_unexpected [PCQ], C90_refuted [P].
* **C91 Positions and counters are exact for every text** (partial). Model/Machine has the counters as 32-bit words and the allocation that panics. Lexer: neither line nor column grows faster than the position (Proofs/Bounds, BoundsTok); a definition takes two tokens, a token a byte. Refuted beyond 4 GiB by texts of 2^31 and 2^32 lines (induction with C71).
  Positions: all inputs. Counters and ParseSDLDoc: inputs of less than 4 GiB. Beyond that the claim is false of the code: 2^31 schema extensions make ParseSDLDoc panic (negative capacity), and 2^32 anonymous operations pass LoneAnonymousOperation.
  Theorems: C91_lexer [PCQ], C91_tokens [PCQ], C91_definitions [PCQ], C91_counters_partial [PCQ], C91_sdl_partial [PCQ], C91_refuted_panic [PCQ], C91_refuted_count [PCQ].
* **C92 Formatting a document changes nothing about it** (partial). From C23 (what is printed reads back), C69 and C82 (verdict, errors and schema depend on the definitions only). Refuted for documents that the printer gets wrong.
  For documents that the printer prints right (DocOk, as in C23). Refuted for the others: list types in SDL and unnamed queries with variables are printed as text that is not GraphQL.
  Theorems: C92_query_partial [PCQ], C92_errors_partial [PCQ], C92_sdl_partial [PCQ], C92_refuted_sdl [P], C92_refuted_query [P].
* **C93 Validation does not look at descriptions and literal values** (proved). Spec/Outline takes descriptions, literals and positions away. Proofs/Outline: the events of a walk over the outline are the outlines of the events, and each rule (and each decorator of the context) does to outlines the outline of what it does. Proofs/OutlineSchema: what is built and the errors of schema validation, at the level of Spec/Build and Spec/Schema.
  Exact order of errors for Validate, ValidateSDL and ParseDoc; for ParseSDLDoc up to the order of errors and map entries (Go map iteration is arbitrary). The hypothesis is on parsed documents, as the parser sets the counters.
  Theorems: C93_rules [PCQ], C93_query [PCQ], C93_sdl [PCQ].
* **C94 The words in strings and descriptions have no influence on validation** (proved). C81 (parsing does not look into strings) gives documents that differ in strings only; these have the same outline, and C93 applies. Stated for texts through the specification's own lexical grammar (Spec/Lex).
  Texts without NUL; strings keep being empty or non-empty (an empty description before schema is overlooked, C81_refuted).
  Theorems: C94_query [PCQ], C94_sdl [PCQ].
* **C95 New names for what a schema names change nothing else** (proved). Spec/Relabel gives new names to syntax trees and schemas. Proofs/Relabel: the nodes of the renamed document are the renamed nodes. Proofs/RelabelErrors, RelabelQuery, RelabelSchema: each list of errors of the specification, and the schema of Spec/Build, commute with it; the theorems relating model and specification (C39, SdlDoc) transfer this to the code.
  C95_query_errors excludes variables in type system definitions; C95_query has no such condition. C95_query_needed and C95_distinct_needed: two of the conditions on names cannot be dropped.
  Theorems: C95_sdl [PCQ], C95_query [PCQ], C95_query_errors [PCQ], C95_query_needed [P], C95_distinct_needed [P].
* **C96 Building a schema again** (partial). Proofs/Twice: Join in the model of memory of Model/Heap: joining a list that can be reached already makes a ring, reading a ring never ends, lifted to BuildSchema of Model/HeapBuild called again (Model/HeapAgain). Spec/Again says which extensions add to a list that is not empty. Proofs/Idle: for documents without these, an invariant over all sequences of calls.
  C96_refuted is a concrete counterexample; C96_rings: for every document with an extension that adds to a non-empty list, the schema cannot be read after the second call, and a third call never returns; C96_partial: for every other document, any number of calls return, and all schemas are the same.
  Theorems: C96_refuted [PCQ], C96_rings [PCQ], C96_partial [PCQ].
* **C97 The name of a constant identifies it** (proved). Model/Names has every switch and map as a table that any integer is looked up in. Called/Identifies (Spec/Names) say what it means for words to name numbers; one lemma carries the finite check of the keys over to all integers, another makes injectivity of it. C97_used and C97_lookup connect the tables to the functions the rest of the model uses, C97_sets to the bit sets of C22.
  The words are those in the code; the int value is called "int8 value" (an artefact in the code, kept).
  Theorems: C97_kinds [PQ], C97_used [-], C97_inverse [PQ], C97_lookup [PCQ], C97_sets [PQ], C97_tests [PQ], C97_definitions [P], C97_panics [P].
* **C98 Printing to a writer** (partial). Model/Fdump has all the dump methods again as programs that call a writer with a state of its own (Spec/Writer), dropping its answers as the code does. Proofs/Fdump: by induction on documents, the calls are the same for all writers and their strings put together are the text of Model/Dumper.
  As stated false: the results of io.WriteString are dropped, so nobody learns of an error (C98_disk: a full disk has the first n bytes, and Fdump returns), and after a failed write the rest is written all the same (C98_refuted: a hole in the text). C98_calls: the calls are the same for every writer and make up the text of Sdump; C98_prefix_partial: a beginning of the text for every writer that takes nothing after an error.
  Theorems: C98_calls [PQ], C98_buffer [PQ], C98_prefix_partial [PQ], C98_disk [PQ], C98_refuted [PQ].
* **C99 A parser that is asked again** (partial). Model/ParseAgain: a call from any state of the lexer, and the state afterwards (one token more has been scanned than consumed). Every scan moves on unless at the end (also an EOF token at a NUL byte), so calls are drained after as many as there are bytes; where a call stops comes from the locality of errors (C76) and the grammar (C15). The state after a panic is left out.
  Proved for all inputs: every call that does not panic moves on, the text is drained after at most as many calls as it has bytes, and after an error the next call reads on behind the token; what it returns is what Parse makes of the rest of the text on its own, but for positions (C99_what_is_left, C99_next; texts without NUL). That a parser that has returned a document has nothing more is proved for texts without NUL bytes and refuted with one (C99_refuted: the next call returns the text behind the NUL as another document). After a number out of range or a reserved enumeration value one token more is lost (C99_after_error, C99_lost). The state after a panic is not modelled.
  Theorems: C99_first [PCQ], C99_returns [PCQ], C99_at_end [PQ], C99_drained [PCQ], C99_after_document_partial [PCQ], C99_after_error [PCQ], C99_what_is_left [PCQ], C99_next [PCQ], C99_refuted [P], C99_lost [P].

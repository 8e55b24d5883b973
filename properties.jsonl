{"id": "C01", "title": "Scanning always terminates, never panics and reaches end of input", "statement": "For every byte slice, every call to Lexer.Scan returns (no infinite loop, no out-of-range slice or index), and calling Scan repeatedly yields an EOF or Illegal token after at most len(input)+1 calls.", "quantifier": "every byte slice (valid UTF-8 or not) and every point in the token stream", "why_tests_cant": "The lexer backtracks (unread), re-scans strings in a second pass, recurses from comments and indexes input[pos+1]; tests sample a few dozen inputs, the claim is about all of them.", "anchors": ["language/lexer.go: Scan, scanString, scanBlockString, scanComment, isTripQuotes, readNextSignificant, read, readUnicode, unread"]}
{"id": "C02", "title": "Every scanned token makes progress", "statement": "Every token other than EOF returned by Scan consumes at least one byte and the lexer never moves before the position it had when Scan was called or past the end of the input.", "quantifier": "every input and every reachable lexer position", "why_tests_cant": "A zero-width token would make the parser loop forever; ruling it out needs an argument over all backtracking paths.", "anchors": ["language/lexer.go: Scan, unread, isTripQuotes"]}
{"id": "C03", "title": "Tokens are the ones the GraphQL lexical grammar prescribes", "statement": "For every UTF-8 source text without NUL characters, the kinds and literals returned by repeated Scan are exactly those of an independently written GraphQL lexer over characters: maximal-munch names, punctuators, Int/Float numbers, decoded strings and block strings, with white space, commas, line terminators, BOMs and comments ignored, up to and including the first EOF or Illegal token.", "quantifier": "every sequence of Unicode scalar values other than U+0000", "why_tests_cant": "Golden tests cover about 80 literals; equality with a specification has to hold for every text.", "anchors": ["language/lexer.go: Scan and all scan* methods", "language/token.go: TokenKind"]}
{"id": "C04", "title": "Name tokens are GraphQL names", "statement": "Every Name token's literal matches [_A-Za-z][_0-9A-Za-z]* and is the maximal such run of the source; digits or other characters never leak in.", "quantifier": "every input", "why_tests_cant": "Needs all inputs, including inputs ending in NUL or in a dangling UTF-8 lead byte.", "anchors": ["language/lexer.go: scanName, readUnicode"]}
{"id": "C05", "title": "Nothing after an early end-of-input marker is silently dropped", "statement": "If Parse succeeds then every byte of the input was part of a token, a comment or ignorable white space: the EOF token is only produced at the true end of the input.", "quantifier": "every byte slice for which Parse succeeds", "why_tests_cant": "Only inputs with embedded NUL bytes or truncated UTF-8 can show the difference between eof==0 and a 0 byte.", "anchors": ["language/lexer.go: eof, read, readUnicode, Scan", "language/parser.go: Parse"]}
{"id": "C06", "title": "String escapes decode to the characters they denote", "statement": "For every quoted string the StringValue literal is the UTF-8 encoding of the characters obtained by replacing \\\", \\\\, \\/, \\b, \\f, \\n, \\r, \\t and \\uXXXX by the character they denote (U+FFFD for surrogates) and copying every other character; a raw control character other than tab, a line break, an unknown escape or a bad hex digit makes the token Illegal.", "quantifier": "every string content, every mix of escapes and non-ASCII characters", "why_tests_cant": "The decoder is a separate second pass over the text that must stay in step with the first; combinations are unbounded.", "anchors": ["language/lexer.go: scanString, escapedChar, encodeRune, unicodeCodePointToRune, hexRuneToInt"]}
{"id": "C07", "title": "Block strings get the value the specification's BlockStringValue algorithm gives", "statement": "The literal of a block string is BlockStringValue of its raw content: line breaks normalised to LF, \\\"\"\" unescaped, common indentation of all lines but the first removed, leading and trailing blank lines dropped.", "quantifier": "every block string content", "why_tests_cant": "Indentation, blank lines, escapes and CR/LF combinations interact; the space is infinite.", "anchors": ["language/lexer.go: scanBlockString, blockStringLiteral, leadingWhitespace, isTripQuotes"]}
{"id": "C08", "title": "Token line numbers are right", "statement": "The Line of every token is one plus the number of line terminators (LF, CR, or CRLF counted once) that precede the token's first character.", "quantifier": "every input, every token", "why_tests_cant": "Line bookkeeping is spread over four functions; errors only show up after particular combinations of comments, CRs and block strings.", "anchors": ["language/lexer.go: readNextSignificant, scanComment, blockStringLiteral"]}
{"id": "C09", "title": "Token columns are right", "statement": "The Column of every token is one plus the number of characters between the last line terminator before the token and the token's first character.", "quantifier": "every input, every token", "why_tests_cant": "lpos is adjusted by every read and unread on every path, including reads that hit end of input.", "anchors": ["language/lexer.go: read, unread, readNextSignificant, scanString, scanBlockString"]}
{"id": "C10", "title": "UTF-8 encoding and decoding are inverse", "statement": "encodeRune followed by decoding gives back every Unicode scalar value with its exact width, and non-ASCII characters inside strings, names' neighbourhoods and comments are never split or altered.", "quantifier": "every Unicode scalar value and every string of them", "why_tests_cant": "1.1 million scalar values times contexts.", "anchors": ["language/lexer.go: encodeRune, readUnicode"]}
{"id": "C11", "title": "Ignored characters never change the meaning", "statement": "Inserting any amount of white space, commas, line terminators, BOMs and comments between tokens changes neither the kinds and literals of the tokens nor the parsed document (up to locations).", "quantifier": "every token sequence and every choice of ignorable text between tokens", "why_tests_cant": "Unbounded insertion sequences.", "anchors": ["language/lexer.go: readNextSignificant, scanComment", "language/parser.go: Parse"]}
{"id": "C12", "title": "Parse never panics", "statement": "For every input Parse returns a document or an error; it never panics.", "quantifier": "every byte slice", "why_tests_cant": "A panic hides behind one particular token sequence; only an exhaustive argument over all sequences excludes (or pins down) it.", "anchors": ["language/parser.go: Parse, parseDefinition, parseFragmentDefinition"]}
{"id": "C13", "title": "Parse always terminates", "statement": "For every input Parse terminates, and the depth of recursion is bounded by the number of tokens.", "quantifier": "every byte slice", "why_tests_cant": "Several parser loops have no explicit end-of-input test and rely on the callee failing.", "anchors": ["language/parser.go: all parse* methods"]}
{"id": "C14", "title": "Everything in the grammar is accepted, with the AST it denotes", "statement": "If a token sequence is derivable from the GraphQL grammar (June 2018, with the lookahead restriction that resolves optional trailing blocks) as a document with abstract syntax D, then Parse succeeds and returns exactly D.", "quantifier": "every derivation of the grammar, any nesting depth", "why_tests_cant": "Unbounded recursive syntax.", "anchors": ["language/parser.go: all parse* methods"]}
{"id": "C15", "title": "Everything accepted is in the grammar, and means what the AST says", "statement": "If Parse succeeds with document D then the token sequence is derivable from the grammar with abstract syntax D; in particular two different documents never come from the same tokens.", "quantifier": "every accepted input", "why_tests_cant": "Over-acceptance can not be excluded by sampling accepted inputs.", "anchors": ["language/parser.go: parseType, parseDefinition, parseSelectionSet"]}
{"id": "C16", "title": "Malformed list types are rejected", "statement": "A '[' not followed by a complete type and a matching ']' makes Parse fail; no accepted document contains a list type without element type.", "quantifier": "every input", "why_tests_cant": "Only specific malformed inputs reveal swallowed errors.", "anchors": ["language/parser.go: parseType"]}
{"id": "C17", "title": "Document counters equal the number of definitions of each kind", "statement": "In the returned Document, OperationDefinitions, FragmentDefinitions, DirectiveDefinitions, SchemaDefinitions, TypeDefinitions and SchemaExtensions are the numbers of such definitions and TypeExtensions is the number of distinct extended type names.", "quantifier": "every accepted input", "why_tests_cant": "Any number and interleaving of definitions.", "anchors": ["language/parser.go: Parse", "ast/ast.go: Document"]}
{"id": "C18", "title": "Definitions carry the position of their first token", "statement": "The i-th definition's Location is the line and column of the first token of that definition (its description if it has one), and definitions appear in source order.", "quantifier": "every accepted input, every definition", "why_tests_cant": "Any number of definitions.", "anchors": ["language/parser.go: parseDefinition", "ast/ast.go: Location"]}
{"id": "C19", "title": "Integers in the AST are exactly the integers written", "statement": "Every Int value in an accepted document is the integer its decimal literal denotes and fits in 64 bits; a literal that does not fit makes Parse fail.", "quantifier": "every integer literal of any length", "why_tests_cant": "Overflow boundaries and arbitrary length literals.", "anchors": ["language/parser.go: parseValue", "language/lexer.go: scanNumber"]}
{"id": "C20", "title": "A failed Parse returns no partial document, and the error names a real token", "statement": "If Parse returns an error the document is the empty Document, and a syntax error quotes line, column, kind and literal of a token of the input.", "quantifier": "every rejected input", "why_tests_cant": "Every failure path.", "anchors": ["language/parser.go: Parse, unexpected, mustConsume0, mustConsume1, mustConsumen"]}
{"id": "C21", "title": "Directive locations recorded by the parser are where the directive stands", "statement": "Every directive in an accepted document records the DirectiveLocation of the construct it is attached to (QUERY, MUTATION, SUBSCRIPTION, FIELD, FRAGMENT_DEFINITION, FRAGMENT_SPREAD, INLINE_FRAGMENT, SCHEMA, SCALAR, OBJECT, FIELD_DEFINITION, ARGUMENT_DEFINITION, INTERFACE, UNION, ENUM, ENUM_VALUE, INPUT_OBJECT, INPUT_FIELD_DEFINITION).", "quantifier": "every accepted input, every directive at any depth", "why_tests_cant": "Unbounded nesting.", "anchors": ["language/parser.go: parseDirectives and callers"]}
{"id": "C22", "title": "Directive location sets survive parsing and printing", "statement": "Parsing 'on L1 | ... | Ln' yields the set {L1..Ln}; names and bits are in one-to-one correspondence.", "quantifier": "every list of locations", "why_tests_cant": "2^19 sets and unbounded lists with repetition.", "anchors": ["language/parser.go: parseDirectiveLocations", "ast/ast.go: DirectiveLocationsByName, NamesByDirectiveLocations", "ast/dumper.go: dumpDirectiveLocations"]}
{"id": "C23", "title": "Printing and re-parsing gives the same document", "statement": "For every document D produced by Parse, Parse(Sdump(D)) succeeds and returns D up to locations.", "quantifier": "every accepted input", "why_tests_cant": "Round trip over an infinite, recursive document type.", "anchors": ["ast/dumper.go: Sdump and all dump* methods", "language/parser.go: Parse"]}
{"id": "C24", "title": "String values survive printing", "statement": "Lexing the printed form of a String value gives back the same bytes.", "quantifier": "every string value", "why_tests_cant": "Every combination of quotes, backslashes, control characters, line breaks and non-ASCII characters.", "anchors": ["ast/dumper.go: dumpValue, escapeGraphQLString, escapeGraphQLBlockString"]}
{"id": "C25", "title": "Linked lists behave like sequences", "statement": "Add prepends, Reverse reverses, Join appends, FromSlice preserves order, Insert puts the item at the requested position, Len is the number of items and ForEach visits every item once, first to last, with consecutive indices from 0; all this with pointer mutation as implemented, for any history of operations.", "quantifier": "every list, every sequence of operations", "why_tests_cant": "Histories of in-place pointer updates are unbounded.", "anchors": ["ast/lists.go", "graphql/lists.go", "tools/listgen/main.go"]}
{"id": "C26", "title": "List operations leave other lists alone", "statement": "Add, Reverse, Join and Insert change only nodes of their operand lists: every list that shares no node with them keeps its contents and length; nodes of the second operand of Join keep their contents.", "quantifier": "every heap with any number of lists", "why_tests_cant": "Aliasing bugs depend on heap shapes.", "anchors": ["ast/lists.go: Add, Reverse, Join, Insert"]}
{"id": "C27", "title": "Generators enumerate the list, and Reset restarts them", "statement": "Calling Next repeatedly returns the items in order with indices 0,1,..., then (zero,-1) forever; after Reset the enumeration starts again from the first item.", "quantifier": "every list, any number of Next and Reset calls", "why_tests_cant": "Histories of calls are unbounded.", "anchors": ["ast/lists.go: Generator, Next, Reset"]}
{"id": "C28", "title": "The walker visits every node once, in document order, properly nested", "statement": "Walk calls the enter handlers of every AST node exactly once in source (pre-)order and the leave handlers exactly once after all descendants; enter/leave events form a balanced bracket sequence, and handlers of one node run in registration order.", "quantifier": "every document, every set of handlers", "why_tests_cant": "Recursive document type and arbitrary handler sets.", "anchors": ["validation/walker.go: Walk, walk*, On*Enter, On*Leave, Add*EventHandler, NewWalker"]}
{"id": "C29", "title": "Errors do not depend on rule interaction", "statement": "The errors collected by running several rules in one walk are, as a multiset, the union of the errors each rule reports alone.", "quantifier": "every document, schema and combination of the implemented rules", "why_tests_cant": "All combinations of 15 rules with all documents.", "anchors": ["validation/walker.go: Walk", "validation/rules/rules.go", "validation/context.go: Context"]}
{"id": "C30", "title": "Only executable definitions in a query document", "statement": "ParseDoc reports one error per type-system definition or extension, naming it, and none for operations and fragments.", "quantifier": "every document", "why_tests_cant": "Every mix of definitions.", "anchors": ["validation/rules/rule_executable_definitions.go"]}
{"id": "C31", "title": "An anonymous operation must be alone", "statement": "ParseDoc reports an error for an anonymous operation if and only if the document has another operation.", "quantifier": "every document", "why_tests_cant": "Every number and order of operations and other definitions.", "anchors": ["validation/rules/rule_lone_anonymous_operation.go"]}
{"id": "C32", "title": "Referenced type names are known", "statement": "A type name referenced anywhere in the document (variable types, type conditions, field, argument and input types, interfaces, union members, root operation types) is reported if and only if it is not in the schema, not defined in the SDL document and not one of the five built-in scalars.", "quantifier": "every document, every schema, every occurrence at any depth", "why_tests_cant": "Occurrences at any depth.", "anchors": ["validation/rules/rule_known_type_names.go"]}
{"id": "C33", "title": "Variables are reported as unused exactly when they are", "statement": "A variable of an operation is reported if and only if it is used neither in the operation nor in any fragment reachable from it through any chain of spreads, including cyclic ones; and computing this terminates.", "quantifier": "every document, any fragment graph including cycles", "why_tests_cant": "Reachability over arbitrary graphs.", "anchors": ["validation/rules/rule_no_unused_variables.go", "validation/context.go: RecursiveVariableUsages, setVariableUsages, setReferencedFragments"]}
{"id": "C34", "title": "Recursively referenced fragments are the reachable ones", "statement": "RecursivelyReferencedFragments returns exactly the fragments reachable by one or more spreads and terminates on cyclic fragments.", "quantifier": "every document", "why_tests_cant": "Arbitrary, cyclic graphs.", "anchors": ["validation/context.go: RecursivelyReferencedFragments"]}
{"id": "C35", "title": "Directives are known and in place", "statement": "A directive is reported unknown iff neither the schema nor the SDL document nor the specification defines it, and misplaced iff its definition (schema first, then document, then built-in) does not list the location it stands at.", "quantifier": "every document and schema, every directive", "why_tests_cant": "Any depth, any definition set.", "anchors": ["validation/rules/rule_known_directives.go", "graphql/builtin.go"]}
{"id": "C36", "title": "Duplicate directives at one location are reported", "statement": "For every directive list the number of duplicate errors for name n is its number of occurrences minus one.", "quantifier": "every directive list in every document", "why_tests_cant": "Any length, any multiplicity.", "anchors": ["validation/rules/rule_unique_directives_per_location.go"]}
{"id": "C37", "title": "Duplicate argument names are reported", "statement": "For every argument list of a field or directive and every argument definition list of a field or directive definition, each name is reported once per repetition and not otherwise.", "quantifier": "every document", "why_tests_cant": "Any length, any multiplicity.", "anchors": ["validation/rules/rule_unique_argument_names.go"]}
{"id": "C38", "title": "Duplicate input object fields are reported", "statement": "For every object value at any depth each field name is reported once per repetition and not otherwise.", "quantifier": "every document", "why_tests_cant": "Nested values of any depth.", "anchors": ["validation/rules/rule_unique_input_field_names.go"]}
{"id": "C39", "title": "ParseDoc accepts exactly the documents that satisfy the enabled rules", "statement": "ParseDoc returns a document iff the text parses and no enabled rule is violated; otherwise it returns exactly one of a parse error or a non-empty error list and no document.", "quantifier": "every text and schema", "why_tests_cant": "Conjunction over all documents.", "anchors": ["graphqlparser.go: ParseDoc", "validation/rules/rules.go: Specified"]}
{"id": "C40", "title": "Type, directive and schema definitions are unique", "statement": "When not extending, each repeated type or directive name is reported once per repetition, the first definition wins, and each schema definition after the first is reported; when extending, a definition whose name the schema already has is reported and any schema definition is reported.", "quantifier": "every SDL document and schema", "why_tests_cant": "Any number and order of definitions.", "anchors": ["validation/context.go: PrepareContextSDL, NewSDLContext"]}
{"id": "C41", "title": "Directive arguments in SDL are known", "statement": "An argument of a directive is reported iff the directive's definition has no argument of that name.", "quantifier": "every directive use with any number of arguments", "why_tests_cant": "Needs several arguments in one use; the tests only use one.", "anchors": ["validation/rules/rule_known_argument_names.go: KnownArgumentNamesOnDirectives", "ast/lists.go: Reset"]}
{"id": "C42", "title": "Required directive arguments are provided", "statement": "For every directive use with a known definition, each non-null argument without default that is not given is reported, and nothing else.", "quantifier": "every SDL document", "why_tests_cant": "Any definitions and uses.", "anchors": ["validation/rules/rule_provided_required_arguments.go"]}
{"id": "C43", "title": "Extensions extend existing types of the same kind", "statement": "A type extension is reported iff the type is not defined in the schema being extended or the document, or has a different kind.", "quantifier": "every SDL document and schema", "why_tests_cant": "All kinds and orders.", "anchors": ["validation/rules/rule_possible_type_extensions.go", "validation/context.go: TypeDefinition"]}
{"id": "C44", "title": "Exactly the names beginning with two underscores are refused", "statement": "Type, field, argument, input field and directive names are reported by the SDL walk iff they begin with '__'.", "quantifier": "every name", "why_tests_cant": "Every string; only names with an underscore in one of the first two places matter.", "anchors": ["validation/rules/rule_possible_names.go: isValidName"]}
{"id": "C45", "title": "Root operation types are defined at most once", "statement": "Within a schema definition and its extensions each repeated query, mutation or subscription entry is reported once per repetition; an entry already present in the schema being extended is reported as existing.", "quantifier": "every SDL document and schema", "why_tests_cant": "Any sequence of definitions and extensions.", "anchors": ["validation/rules/rule_unique_operation_types.go"]}
{"id": "C46", "title": "The built schema contains exactly the document's types and directives plus the built-ins", "statement": "Without a base schema, Types (Directives) of the result maps each name to the document's first definition, or to the built-in one if the document has none; nothing else; root types are the ones the schema definition gives, or Query by default.", "quantifier": "every accepted SDL document", "why_tests_cant": "Any document.", "anchors": ["validation/schema_build.go: buildTypes, buildDirectives, buildSchemaDefinition"]}
{"id": "C47", "title": "Extensions contribute all their members", "statement": "After a successful ParseSDLDoc every directive, interface, field, union member, enum value and input field written in an extension is present in the extended definition, after the definition's own members and in order.", "quantifier": "every accepted SDL document with any number of extensions", "why_tests_cant": "Any number of extensions; the interesting ones extend an empty member list.", "anchors": ["validation/schema_build.go: mergeTypeExtensions, mergeSchemaExtensions", "ast/lists.go: Join"]}
{"id": "C48", "title": "Extending a schema keeps what it had", "statement": "Extending a schema with ParseSDLDoc yields a schema that still has all types, directives and root operation types of the original plus those of the extension.", "quantifier": "every schema and SDL document", "why_tests_cant": "Any schema.", "anchors": ["validation/schema_build.go: buildTypes, buildDirectives, buildSchemaDefinition"]}
{"id": "C49", "title": "A failed extension leaves the caller's schema untouched", "statement": "If ParseSDLDoc(doc, schema) returns errors, the schema passed in is unchanged.", "quantifier": "every schema and every failing document", "why_tests_cant": "Every failure point.", "anchors": ["graphqlparser.go: ParseSDLDoc", "validation/schema_build.go: buildSchema", "validation/schema_validate.go"]}
{"id": "C50", "title": "Root types are checked", "statement": "ValidateSchema reports a missing query root type, and any root type that exists but is not an object type, and nothing else about root types.", "quantifier": "every schema", "why_tests_cant": "All combinations.", "anchors": ["validation/schema_validate.go: validateRootTypes"]}
{"id": "C51", "title": "Field and argument types are of the right sort", "statement": "Every field whose type is not an output type and every argument whose type is not an input type is reported, once per occurrence; list and non-null wrappers do not matter; built-in scalars are both input and output types.", "quantifier": "every schema, any depth of wrapping", "why_tests_cant": "Unbounded wrapping.", "anchors": ["validation/schema_validate.go: validateFields", "validation/utils.go: IsInputType, IsOutputType", "graphql/builtin.go: SpecifiedTypes"]}
{"id": "C52", "title": "Subtyping follows the specification", "statement": "IsTypeSubTypeOf(a,b) holds iff a equals b, or a is covariant to b through non-null and list wrappers down to an object type that is a member of the abstract type b; it is reflexive and ignores pointer identity.", "quantifier": "every schema and pair of types", "why_tests_cant": "Unbounded wrapping, arbitrary schemas.", "anchors": ["validation/utils.go: IsTypeSubTypeOf, IsPossibleType, PossibleTypes, InterfaceImplementations"]}
{"id": "C53", "title": "Validation terminates", "statement": "ParseSDLDoc returns for every input.", "quantifier": "every SDL document and schema", "why_tests_cant": "A hang only shows for one combination of interface and object types.", "anchors": ["validation/utils.go: IsPossibleType", "ast/ast.go: EnumValueDefinitionByName"]}
{"id": "C54", "title": "Objects provide what their interfaces promise", "statement": "For each object type each interface is implemented once, is an interface, and each of its fields is present with a subtype; violations are reported once each.", "quantifier": "every schema", "why_tests_cant": "Any schema.", "anchors": ["validation/schema_validate.go: validateObjectInterfaces, validateObjectImplementsInterface", "ast/ast.go: FieldDefinitionByName"]}
{"id": "C55", "title": "Names in a schema are valid", "statement": "validateName reports a name iff it is empty, begins with '__' or does not match [_a-zA-Z][_a-zA-Z0-9]*; exactly one error per bad name.", "quantifier": "every string", "why_tests_cant": "Every string.", "anchors": ["validation/schema_validate.go: validateName"]}
{"id": "C56", "title": "The set of reported errors does not depend on map iteration order", "statement": "For every iteration order Go may choose for the schema's maps, ValidateSchema reports the same multiset of errors and BuildSchema builds the same schema.", "quantifier": "every schema and every iteration order of each map", "why_tests_cant": "Go randomises the order; tests see one per run.", "anchors": ["validation/schema_validate.go: validateDirectives, validateTypes", "validation/schema_build.go: mergeTypeExtensions", "validation/utils.go: InterfaceImplementations"]}
{"id": "C57", "title": "OrList formats at most five items and never reads out of range", "statement": "OrList panics iff the list is empty; one item is returned as is, two are joined by ' or ', three or more are the first min(n,5) items joined by ', ' with ', or ' before the last.", "quantifier": "every list of strings", "why_tests_cant": "Any length.", "anchors": ["validation/utils.go: OrList, QuotedOrList"]}
{"id": "C58", "title": "QuotedOrList does not modify its argument", "statement": "QuotedOrList quotes each item and leaves the caller's slice as it was.", "quantifier": "every slice", "why_tests_cant": "Aliasing is invisible to value-based tests.", "anchors": ["validation/utils.go: QuotedOrList"]}
{"id": "C59", "title": "Suggestions are exactly the close options, nearest first", "statement": "SuggestionList returns, with multiplicity, exactly the options whose distance to the input is at most max(1, len(input)/2, len(option)/2), ordered by increasing distance and, at equal distance, decreasing length.", "quantifier": "every input and option list", "why_tests_cant": "Any lists.", "anchors": ["validation/utils.go: SuggestionList, lexicalDistance"]}
{"id": "C60", "title": "Errors marshal to well-formed JSON", "statement": "MarshalJSON of an Error is a well-formed JSON object carrying the message, and locations and path in order.", "quantifier": "every error", "why_tests_cant": "Every message, including the ones with quotes.", "anchors": ["graphql/errors.go: MarshalJSON"]}
{"id": "C61", "title": "SortErrors is a canonical ordering", "statement": "SortErrors returns a rearrangement of its argument whose JSON forms are in order, so two lists with the same errors in different order have the same JSON sequence after sorting.", "quantifier": "every list of errors, any permutation", "why_tests_cant": "All permutations.", "anchors": ["graphql/errors.go: SortErrors"]}
{"id": "C62", "title": "ParseSDLDoc never panics", "statement": "For every text and every schema passed in (or none), ParseSDLDoc does not panic.", "quantifier": "every input text, base schema, map iteration order", "why_tests_cant": "Panics hide in texts nobody wrote a test for.", "anchors": ["graphqlparser.go: ParseSDLDoc", "validation/schema_validate.go", "validation/utils.go", "language/parser.go"]}
{"id": "C63", "title": "Two operations never share a name in an accepted document", "statement": "If ParseDoc returns a document, no two of its operation definitions have the same non-empty name.", "quantifier": "every query text and schema", "why_tests_cant": "Quantifies over all documents.", "anchors": ["graphqlparser.go: ParseDoc", "validation/rules/rules.go", "validation/context.go"]}
{"id": "C64", "title": "Looking up an enumeration value or a field by name", "statement": "TypeDefinition.EnumValueDefinitionByName(name) returns the first value definition of that name of an enumeration type, and otherwise reports that it is not found; FieldDefinitionByName(name) does the same for the fields of object and interface types. Both return for every name.", "quantifier": "every type definition and name", "why_tests_cant": "Includes termination for every list of values and every name; a test can only try some names.", "anchors": ["ast/ast.go: EnumValueDefinitionByName, FieldDefinitionByName", "ast/lists.go: Generator, Next"]}
{"id": "C65", "title": "An accepted schema is a valid schema", "statement": "If ParseSDLDoc returns a schema, it meets the requirements of section 3 of the specification (type validation): root types are objects, names are not reserved, fields, arguments, members, values and input fields exist and are unique and have types of the right sort, and objects provide what their interfaces ask for.", "quantifier": "every SDL text and base schema", "why_tests_cant": "Quantifies over all texts that are accepted.", "anchors": ["graphqlparser.go: ParseSDLDoc", "validation/schema_validate.go", "validation/rules/rules.go"]}
{"id": "C66", "title": "The text of a type reference is that type reference", "statement": "Type.String() of every type in a parsed document, written in the place of a type, is read by the parser as the same type; so two types with the same text are the same.", "quantifier": "every type reference, of any nesting", "why_tests_cant": "Types nest without bound.", "anchors": ["ast/ast.go: Type.String, nonNullable", "language/parser.go: parseType"]}
{"id": "C67", "title": "A response is written as JSON that says the same", "statement": "Response.MarshalGraphQL (lab/server) returns a text if the data is null or an object whose values are all of known kinds; the text is a JSON object whose member data says what the data is, for every value, however deep.", "quantifier": "every response value", "why_tests_cant": "Values nest without bound and contain arbitrary strings.", "anchors": ["lab/server/response.go: ResponseValue.MarshalGraphQL, Response.MarshalGraphQL"]}
{"id": "C68", "title": "Token positions count from one and go forward", "statement": "For every input, whatever its bytes: the line and the column of every token returned by Scan are at least one, and each token's position is after that of the token before it; so the definitions of every accepted document are located one after the other.", "quantifier": "every byte sequence, valid UTF-8 or not; every pair of tokens", "why_tests_cant": "Inputs are unbounded, and positions depend on all that was read before, including line ends, comments, escapes and block strings.", "anchors": ["language/lexer.go: Scan, read, unread, readNextSignificant, scanString, scanBlockString", "language/parser.go: parseDefinition"]}
{"id": "C69", "title": "The verdict on a query document depends neither on its layout nor on the order of its definitions", "statement": "Two query documents with the same definitions, in whatever order and with whatever white space, commas and comments between their tokens, are both accepted or both rejected by ParseDoc with the same schema; and the messages of the errors are the same up to order (of documents without variables in type-system definitions, which are rejected in any case).", "quantifier": "every pair of documents with the same definitions; every schema; every layout", "why_tests_cant": "Documents, permutations and layouts are unbounded, and the rules share state while the document is walked.", "anchors": ["graphqlparser.go: ParseDoc", "validation/validate.go: Validate", "validation/rules"]}
{"id": "C70", "title": "An accepted query document is a valid document", "statement": "Every document that ParseDoc accepts meets the requirements of section 5 of the GraphQL specification (June 2018); and exactly those requirements that are implemented decide acceptance.", "quantifier": "every input and every schema", "why_tests_cant": "A test suite tries rule by rule; that no requirement is forgotten is a statement about all documents.", "anchors": ["graphqlparser.go: ParseDoc", "validation/rules", "graphqlparser.go: ParseDoc, rules"]}
{"id": "C71", "title": "Documents can be put one after the other", "statement": "If Parse accepts two texts then it accepts the first followed by a line end and the second, and the result has the definitions of the first followed by those of the second.", "quantifier": "every pair of accepted texts without NUL characters", "why_tests_cant": "Every pair of texts is meant, with whatever the first ends (comments, numbers, optional parts) and whatever the second begins with.", "anchors": ["language/parser.go: Parse, parseDefinition, skip1, peek1", "language/lexer.go: Scan"]}
{"id": "C72", "title": "Formatting is idempotent and tells documents apart", "statement": "Sdump of the document read from a text printed by Sdump is that text again; and two documents are printed the same if and only if they have the same definitions.", "quantifier": "every parsed document, every pair of them", "why_tests_cant": "Documents are unbounded; that no two different ones collide is a statement about all pairs.", "anchors": ["ast/dumper.go: Sdump, Fdump, dumpDefinitions", "language/parser.go: Parse"]}
{"id": "C73", "title": "Types are classified by the kind of what they name", "statement": "IsInputType and IsOutputType answer for the innermost name of a type, whatever its brackets and exclamation marks: every type with a known innermost name is one or the other, and both exactly for scalars and enumerations. IsObjectType, IsInterfaceType, IsUnionType and IsAbstractType accept exactly the non-list types naming a type of that kind; IsUnionMemberType exactly the bare names of object types; PossibleTypes gives the members of a union and the implementations of an interface.", "quantifier": "every schema, type reference and map iteration order", "why_tests_cant": "Unbounded nesting of lists, arbitrary schemas.", "anchors": ["validation/utils.go: IsInputType, IsOutputType, IsObjectType, IsInterfaceType, IsUnionType, IsAbstractType, IsUnionMemberType, PossibleTypes, InterfaceImplementations"]}
{"id": "C74", "title": "Schemas share no mutable state", "statement": "Whatever sequence of ParseSDLDoc calls a program makes, with nil and with schemas that earlier calls returned, what it observes is what it would observe if each schema were a value of its own: a call changes no schema but the one passed in (also when it fails), the returned schema is that one or a new one, and the shared built-in types ID and String never change, although definitions, extensions and built-ins are shared by pointer and extensions are merged by in-place Join of linked lists.", "quantifier": "every history of calls, documents, schemas passed in and map iteration orders", "why_tests_cant": "Aliasing between schemas depends on unbounded histories of in-place pointer updates.", "anchors": ["graphqlparser.go: ParseSDLDoc", "validation/schema_build.go: buildSchema, mergeSchemaExtensions, mergeTypeExtensions, buildSchemaDefinition, buildTypes", "graphql/builtin.go: IDType, StringType, SpecifiedTypes", "ast/lists.go: Join"]}
{"id": "C75", "title": "A lexical error says what is wrong", "statement": "When scanning a text stops with an Illegal token, the literal of that token is the message that describes the text at that point: the stray character itself, the malformed spread with the three characters read, the digit after a leading zero, the character found where a digit was needed, the control character or end of input inside a string (which is reported before any wrong escape), the first wrong escape sequence of a closed string, the control character in a block string, or the missing end of a block string. There is exactly one such message for every text at which no token begins.", "quantifier": "every text without NUL characters", "why_tests_cant": "The texts at which no token begins are infinitely many, and which of several faults is reported depends on two passes over unbounded input.", "anchors": ["language/lexer.go: Scan, scanString, scanBlockString, escapedChar, scanPunctuator, scanNumber, readDigits, isTripQuotes"]}
{"id": "C76", "title": "A syntax error says what was found and what would have been right there", "statement": "The error of Parse is about one token: all texts whose tokens agree up to and including that token get exactly the same error, whatever follows. The error never asks for the token it found, and with a token it asks for in that place the error is not raised there: parsing goes on beyond that token (unless it is a number out of range or a word reserved in enumerations). The text gives the line, column, kind and literal of the token and what is wanted, which is one of a fixed list of requests.", "quantifier": "every text with a syntax error, every text that agrees with it up to the offending token, and every replacement of that token by one that the error asks for", "why_tests_cant": "It relates each failing input to infinitely many others: all continuations, and all continuations after a wanted token.", "anchors": ["language/parser.go: Parse, unexpected, expected, mustConsume0, mustConsume1, mustConsumen", "graphqlparser.go: ParseDoc, ParseSDLDoc"]}
{"id": "C77", "title": "Calls from several goroutines", "statement": "Goroutines may call ParseDoc and ParseSDLDoc and read schemas at the same time. If a schema is passed to ParseSDLDoc only while no other running call uses it, and is used by ParseDoc or read only while ParseSDLDoc is not running with it, then: there is no data race, whatever the interleaving; the calls return what they return when they are made one after the other in the order in which they return; a schema that is not just being extended contains at any moment exactly what it contains then, and nobody is about to write anything it consists of; a call panics only if it panics when made alone at that point; no goroutine waits for another or follows a pointer to nowhere, and every call ends after finitely many of its own steps. Without that care there is a data race: ParseSDLDoc with a schema races with any other call that uses the schema.", "quantifier": "every number of goroutines, every sequence of calls that respects the rule, every interleaving of their memory accesses, every placement of allocated memory, every order of iteration over maps", "why_tests_cant": "Interleavings are unbounded in number, and the race detector sees only the schedules that happen.", "anchors": ["graphqlparser.go: ParseDoc, ParseSDLDoc", "validation/schema_build.go: buildSchema, mergeSchemaExtensions, mergeTypeExtensions, buildSchemaDefinition, buildDirectives, buildTypes", "graphql/builtin.go: IDType, StringType, SpecifiedTypes", "ast/lists.go: Join, Reverse, Add, ForEach"]}
{"id": "C78", "title": "What a rule can look up in its context", "statement": "Whatever rules are combined in a walker and however far the walk is: in ValidateSDL, Context.TypeDefinition(name) is the type of the schema that is being extended and true, else the first type of that name in the document (nil if there is none) and false; DirectiveDefinition likewise, with the built-in directives in the last place; Fragment and OperationDefinitions give the last definition of that name (operations without a name under $$query). In Validate, Fragment gives the last fragment of the name, ReferencedFragments each fragment that the definition spreads, once, and VariableUsages each variable that occurs in it (or in a type-system definition directly after it), once; there is no SDL context, so looking up a type or directive panics. No lookup depends on what the other rules did.", "quantifier": "every document, schema, list of rules, point of the walk and name", "why_tests_cant": "Ranges over all documents, combinations of rules and moments of the walk.", "anchors": ["validation/context.go: DirectiveDefinition, Fragment, TypeDefinition, VariableUsages, ReferencedFragments, PrepareContextSDL", "validation/validate.go"]}
{"id": "C79", "title": "A syntax error is at the first wrong token", "statement": "When Parse reports a syntax error, the text before the token the error is about can be completed to a document that Parse accepts, and no text in which that token follows it is accepted: the error is at the first token with which the text goes wrong, neither before nor after it. (It comes late in three places, where nothing can repair what stands before the error: a list type as type condition, a list type as root operation type, a fragment named on.)", "quantifier": "every text without NUL characters and every error Parse reports for it, whatever comes before and after the error", "why_tests_cant": "There are infinitely many texts, and for each the claim is about all ways to go on: one of them is accepted, and none with the reported token is.", "anchors": ["language/parser.go: Parse, parseDefinition and all functions it calls", "language/lexer.go: Scan"]}
{"id": "C80", "title": "Bytes that are not UTF-8 are read as U+FFFD", "statement": "Scanning and parsing arbitrary bytes behaves as scanning and parsing their text, where every byte that begins no UTF-8 encoded character stands for U+FFFD: the same tokens at the same places, the same verdict, the same document, with string literals and descriptions whose text is the repaired one.", "quantifier": "every byte sequence, and every place a stray byte can stand", "why_tests_cant": "There are infinitely many malformed inputs, and a stray byte may sit in any token, comment, or between tokens; only a proof covers all combinations.", "anchors": ["language/lexer.go: read, unread, Scan, scanString, scanBlockString, skipComment", "language/parser.go: Parse"]}
{"id": "C81", "title": "Parsing does not look into strings", "statement": "If two texts have the same tokens except for the contents of strings, then Parse accepts the one exactly if it accepts the other, and the two documents differ in positions and in the contents of strings and descriptions only.", "quantifier": "every pair of texts with such tokens, every replacement of string contents", "why_tests_cant": "Tests use a few strings; that no other content of a string can change the verdict or the shape of the document is a statement about all contents and all documents.", "anchors": ["language/parser.go: Parse, parseValue, parseDefinition"]}
{"id": "C82", "title": "What ParseSDLDoc makes of a document depends neither on its layout nor on the order of its definitions", "statement": "White space, commas and comments between tokens do not change what ParseSDLDoc returns: the same schema, the same errors in the same order, the same effect on the schema passed in. Writing the definitions of a document in another order changes neither whether it is accepted nor the schema that is returned.", "quantifier": "every text and every insertion of ignorable characters between its tokens; every pair of documents with the same definitions in different orders; every schema to be extended; every order of map iteration", "why_tests_cant": "Tests fix one layout and one order; independence of both is a statement about all pairs of texts, and all orders of map iteration, at once.", "anchors": ["graphqlparser.go: ParseSDLDoc", "validation/context.go: PrepareContextSDL", "validation/schema_build.go: BuildSchema", "validation/rules/rule_unique_operation_types.go: UniqueOperationTypes"]}
{"id": "C83", "title": "What Scan and Parse return does not change when the caller reuses the input buffer", "statement": "The tokens, the document and the error that Scan and Parse return are values: if the caller afterwards writes something else into the byte slice it passed in (to read the next request into it, say), they stay what they were.", "quantifier": "every input, every content of the buffer afterwards", "why_tests_cant": "A test parses and compares without touching the buffer, or tries a few contents; which strings share memory with the input depends on the kind of token and on escapes, line ends and indentation in it, and the claim is about all inputs and all later contents.", "anchors": ["language/util.go: btos", "language/lexer.go: NewLexer, Scan, scanName, scanPunctuator, scanNumber, scanString, scanBlockString, blockStringLiteral", "language/parser.go: NewParser, Parse"]}
{"id": "C84", "title": "How deep the calls are nested", "statement": "A Go program whose stack overflows is killed, so Scan and Parse must not nest calls deeper than the document nests braces and brackets: with room for k+1 nested calls of the functions that call themselves, a document nested k deep is parsed as usual, however long it is. This holds for the parser; Scan calls itself once per comment, so that a run of n comments takes n+1 nested calls, and no limit is put on the nesting of a document.", "quantifier": "every input, every nesting depth k, every bound on the number of nested calls", "why_tests_cant": "A test parses documents of a few sizes; that the depth of the calls depends on the nesting only, and on the length of runs of comments only, is a claim about all inputs of all sizes.", "anchors": ["language/lexer.go: Scan, scanComment", "language/parser.go: Parse, parseValue, parseType, parseSelectionSet"]}
{"id": "C85", "title": "A line and a column name one token", "statement": "Positions increase with the text: of two tokens the later one has the later line, or the same line and a later column, and the end of the text has the last position of all; so the line and column of an error message name one token, and no two definitions of a document have the same Location. This holds whatever the line ends, except that an empty string at the very end of a text may be given the position of the token before it.", "quantifier": "every text without NUL, every pair of tokens; every accepted document, every pair of definitions", "why_tests_cant": "Lines and columns are wrong in many combinations of CR, comments and block strings; that they are never ambiguous has to be shown for all of them.", "anchors": ["language/lexer.go: read, unread, readNextSignificant, scanComment, scanString, scanBlockString", "language/parser.go: parseDefinition", "ast/ast.go: Location"]}
{"id": "C86", "title": "Reading and parsing take time proportional to the input", "statement": "The lexer reads each byte of its input a bounded number of times, and Parse does a bounded number of things for each token: the work done for an input is bounded by a constant times its length, whatever the input, also when it is rejected. No crafted input makes the lexer or the parser go back over the same text again and again. (False of a caller of Scan who goes on after Illegal tokens: a string with many bad escapes and escaped quotes is read to its end again and again, so the work grows with the square of its length. Parse stops at the first Illegal token, so it is not affected.)", "quantifier": "every input (any bytes), accepted or not; every number of calls of Scan", "why_tests_cant": "A benchmark measures the inputs it is given; that no input is quadratic needs an argument about every loop, every step back (unread) and the second pass over strings.", "anchors": ["language/lexer.go: Scan, read, unread, readNextSignificant, scanComment, scanString, scanBlockString, scanNumber, scanName, scanPunctuator", "language/parser.go: Parse, parseDefinition, peek*, skip*, consume*, mustConsume*, all parse* functions"]}
{"id": "C87", "title": "Renaming in a query changes nothing", "statement": "If two texts are read by Parse as documents that differ only in the names of operations, variables, fragments and aliases, in the names of fields, arguments and input fields, in their constants, in the order of the definitions and in their layout, with different variables, fragments, arguments and input fields kept different, then ParseDoc accepts one if and only if it accepts the other, whatever the schema, and rejects them with equally many errors. In particular ParseDoc never looks at aliases, fields and constants.", "quantifier": "every pair of texts, every renaming (different names of one kind to different names), every schema or none", "why_tests_cant": "A rule that treats one name specially, or compares names by a prefix or a hash, behaves well on every name but one; there are infinitely many renamings.", "anchors": ["graphqlparser.go: ParseDoc", "validation/validate.go: Validate", "validation/rules: all query rules", "validation/context.go: setVariableUsages, setExecutableDefinition"]}
{"id": "C88", "title": "A query stays valid when the schema grows", "statement": "A text that ParseDoc accepts with a schema it accepts, with the same document, with every schema that has at least the types of the first and whose directives (the built-in ones included) are allowed wherever those of the first are. The verdict depends on the schema only through the names of its types and the names and places of its directives.", "quantifier": "every text, every pair of schemas (or none)", "why_tests_cant": "Tests fix a schema; that no rule becomes stricter when something unrelated is added to the schema is a statement about all pairs of schemas and all documents.", "anchors": ["graphqlparser.go: ParseDoc", "validation/rules/rule_known_type_names.go: KnownTypeNames", "validation/rules/rule_known_directives.go: KnownDirectives", "graphql/schema.go: Schema"]}
{"id": "C89", "title": "Accepted query documents can be put together and taken apart", "statement": "If ParseDoc accepts two texts, it accepts a text with the definitions of both, in any order and layout (in particular one text after the other, on two lines), with no exception other than an operation without a name beside another operation. An accepted text remains accepted when operations are taken out of it, as long as the fragments stay.", "quantifier": "every pair of accepted texts, every schema, every arrangement of the definitions; every set of operations taken out", "why_tests_cant": "Rules share state across the definitions of a document (variable usages, referenced fragments, counters); that definitions never interfere has to hold for all combinations.", "anchors": ["graphqlparser.go: ParseDoc", "validation/validate.go: Validate", "validation/context.go: NewContext, setVariableUsages, setReferencedFragments", "validation/rules/rule_no_unused_variables.go: NoUnusedVariables", "validation/rules/rule_lone_anonymous_operation.go: LoneAnonymousOperation"]}
{"id": "C90", "title": "What follows a complete line does not change what came before it", "statement": "Let a text end with a line break. Whatever bytes are appended, Scan returns for its tokens (up to EOF or an Illegal token) the same kinds, literals and positions; and if Parse refuses the text because of one of its tokens, then Parse refuses every text that begins with it with the same error.", "quantifier": "all byte slices ending in a line feed, all appended byte slices (also not UTF-8, also NUL bytes)", "why_tests_cant": "The appended bytes are arbitrary; lookahead of the lexer (escapes, triple quotes, multi-byte characters) could depend on them.", "anchors": ["language/lexer.go: Scan and all scan functions", "language/parser.go: Parse"]}
{"id": "C91", "title": "Positions and counters are exact for every text", "statement": "While a text is read, and in every token, line and column never exceed the length of the text by more than one, so that they fit in an int; the counters of the document returned by Parse, which have 32 bits, are the true numbers, and ParseSDLDoc never panics nor skips a check because a counter overflowed.", "quantifier": "all byte slices, of any length", "why_tests_cant": "Counters overflow only for inputs of several GiB, which no unit test contains.", "anchors": ["language/lexer.go: Lexer.line, Lexer.lpos, read, unread", "language/parser.go: Parse", "ast/ast.go: Document", "validation/context.go: PrepareContextSDL", "validation/rules/rule_lone_anonymous_operation.go"]}
{"id": "C92", "title": "Formatting a document changes nothing about it", "statement": "Let Parse accept a text, and let t be the text that Sdump prints for the document. Then ParseDoc accepts t if and only if it accepts the text, and otherwise reports the same errors; ParseSDLDoc makes the same schema of t, or reports the same errors in the same order.", "quantifier": "all accepted texts, all schemas passed in, all orders of map iteration", "why_tests_cant": "It relates printer, lexer, parser, all rules and the schema builder on every document.", "anchors": ["ast/dumper.go: Sdump", "graphqlparser.go: ParseDoc, ParseSDLDoc"]}
{"id": "C93", "title": "Validation does not look at descriptions and literal values", "statement": "Take two accepted texts whose definitions, in order, differ in nothing but descriptions, literal values (numbers, strings, truth values, null, enum values: any may stand for any other) and positions, and two schemas that differ in descriptions and literal values only. Then ParseDoc accepts both texts, or rejects both with the same errors in the same order, and the same goes for Validate and ValidateSDL with any choice of rules. ParseSDLDoc returns for both or for neither, with the same errors up to order, and with schemas that differ in descriptions and literal values only. (In particular no literal is ever compared with the type it is given for.)", "quantifier": "all pairs of accepted texts with the same outline, all schemas, all lists of rules, all orders of map iteration", "why_tests_cant": "There are infinitely many literals and descriptions; the claim is that none of them is ever looked at.", "anchors": ["graphqlparser.go: ParseDoc, ParseSDLDoc", "validation/validate.go: Validate, ValidateSDL", "validation/rules/*.go", "validation/schema_build.go", "validation/schema_validate.go"]}
{"id": "C94", "title": "The words in strings and descriptions have no influence on validation", "statement": "Take two texts whose tokens are the same but for the contents of strings (the replacement neither empties a string nor fills an empty one). Then ParseDoc accepts both or neither, and if it rejects one because of validation errors it rejects the other with the same errors in the same order. If the texts parse, ParseSDLDoc returns for both or for neither, with the same errors up to order and schemas that differ in descriptions and literal values only; if one text does not parse, neither does the other.", "quantifier": "all pairs of texts without NUL with the same tokens up to string contents, all schemas, all orders of map iteration", "why_tests_cant": "There are infinitely many strings, among them strings with escapes, block strings and strings that contain GraphQL.", "anchors": ["graphqlparser.go: ParseDoc, ParseSDLDoc", "language/lexer.go: scanString, scanBlockString", "language/parser.go: Parse"]}
{"id": "C95", "title": "New names for what a schema names change nothing else", "statement": "Give the types, fields, arguments and input fields, directives and enum values of a schema text new names, consistently, so that different things keep different names, names stay as well-formed as they were (no leading underscores gained or lost), and the names that have a meaning of their own stay (built-in scalars, Query, introspection types, skip/include/deprecated and their arguments). Then ParseSDLDoc returns for both texts or for neither; it rejects both, with equally many errors, or accepts both, and then the second schema is the first one with the new names. The same holds when a schema is extended, and ParseDoc accepts a query exactly if it accepts the query with the new names against the schema with the new names, and otherwise reports equally many errors.", "quantifier": "all pairs of texts that parse to documents related by a renaming, all renamings of that kind, all schemas to extend or validate against, all map iteration orders", "why_tests_cant": "A test fixes the names; an accident such as a prefix comparison, a special name compared where it should not be, or a lookup in the wrong namespace shows only for particular names. The claim is about all names and all documents at once, and relates two runs.", "anchors": ["graphqlparser.go: ParseDoc, ParseSDLDoc", "validation/rules: all enabled rules", "validation/schema_build.go: buildSchema", "validation/schema_validate.go: validateSchema", "graphql/builtin.go"]}
{"id": "C96", "title": "Building a schema again", "statement": "`BuildSchema` may be called again, with the context of a document that was validated without errors, or with another such context of the same document: the call returns, and the schema that it returns and the ones that earlier calls have returned can be read and contain the same as the first. (This fails for every document in which an extension adds something to a list that is not empty.)", "quantifier": "every text, every document that it is parsed to and that validates without errors, every sequence of calls with contexts of that document, every order of iteration over maps, every earlier use of the package", "why_tests_cant": "the second call joins the list of an extension once more to a list that contains it, which makes a ring: a test of it does not end; which documents are affected, and that all others are safe for any number of calls, is a statement about all documents", "anchors": ["validation/schema_build.go: BuildSchema, buildSchema, mergeSchemaExtensions, mergeTypeExtensions, buildSchemaDefinition, buildDirectives, buildTypes", "validation/context.go: NewSDLContext", "ast/lists.go: Join, ForEach"]}
{"id": "C97", "title": "The name of a constant identifies it", "statement": "The String methods of the kinds, token kinds and directive locations are total on every number: the declared constants have the documented words in the order of declaration, no other number has one of these words, and all other numbers get one fixed answer. DirectiveLocationsByName and NamesByDirectiveLocations are inverse to each other for every string and number; a set of directive locations has a name exactly if it consists of one location. Exactly the test Is...TypeDefinition / Is...TypeExtension of the kind's name holds for it, and none for a number that is no kind. ExecutableDefinition.String returns the name of a parsed operation or fragment, and panics exactly if the pointer that the kind selects is nil.", "quantifier": "all integers, all strings, all lists of directive locations, all executable definitions", "why_tests_cant": "A kind is a machine integer and a program can make any of them; a clash of names or a fall-through is about pairs of values, most of which no test names. The parser reads locations by name for any string.", "anchors": ["ast/ast.go: String methods of the kinds, DirectiveLocationsByName, NamesByDirectiveLocations, Is...TypeDefinition, Is...TypeExtension, ExecutableDefinition.String", "language/token.go: TokenKindNames, TokenKind.String"]}
{"id": "C98", "title": "Printing to a writer", "statement": "Fdump gives the writer the strings that make up the text that Sdump returns, in order, whatever the writer is. If the writer does not take all of it, the caller learns of it, and what has been written is a beginning of the text.", "quantifier": "all documents, all writers (all state machines that answer a write with a number of bytes and an error), every point of failure", "why_tests_cant": "A test prints to a buffer, which never fails. Failures can come at each of the many writes, in every combination.", "anchors": ["ast/dumper.go: Fdump, Dump, Sdump, and all dump methods (io.WriteString)"]}
{"id": "C99", "title": "A parser that is asked again", "statement": "Parse can be called again on the same parser. A parser that has returned a document is at the end of its text, and every further call fails and changes nothing. After an error the next call reads on behind the token that the error is about. Every call that does not panic gets further in the text until it is at the end, so that a program that calls Parse until nothing is left is done after at most as many calls as the text has bytes.", "quantifier": "all inputs, all sequences of calls of any length, all states that a parser can be in", "why_tests_cant": "The tests call Parse once for each parser. What a second call does depends on where in the text the first one stopped, on every input.", "anchors": ["language/parser.go: NewParser, Parse, consume0, consume1, consumen, mustConsume0, mustConsume1, skip0, skip1, skip", "language/lexer.go: Scan"]}
{"id": "C100", "title": "What an error tells", "statement": "Every validation error that ParseDoc or ParseSDLDoc returns has a message that is not empty, and neither locations nor a path. Its JSON is therefore the message in quotation marks and nothing else, and says that message if and only if the message needs no escapes. A program cannot point at the mistake: texts with the mistake in different places have the same errors.", "quantifier": "all inputs, all schemas, all orders of map iteration, all rules that are enabled and all checks of a built schema", "why_tests_cant": "Each of the some fifty places that make an error would have to be reached, and an error with a location in only one of them would change the form of the answer for the clients of that one.", "anchors": ["graphql/errors.go: Error, NewError, MarshalJSON", "validation/errors.go", "validation/rules", "validation/schema_validate.go", "validation/context.go: PrepareContextSDL", "graphqlparser.go: ParseDoc, ParseSDLDoc"]}
{"id": "C101", "title": "A call has exactly one outcome", "statement": "Whenever ParseDoc returns, exactly one of its three results is there: a document, a list of at least one error, or a syntax error. The same holds for ParseSDLDoc, with a schema in place of the document; if a schema was passed in, the schema returned is that one, as it is after the call, and after a syntax error it is as before. ParseDoc and ParseSDLDoc report the same syntax error as Parse, for exactly the same texts, whatever the schema.", "quantifier": "all inputs, all schemas passed in or nil, all orders of map iteration", "why_tests_cant": "Callers test one result and use another; that there is no input with none of them, two of them or an empty list is a statement about every path through parsing, validation and building.", "anchors": ["graphqlparser.go: ParseDoc, ParseSDLDoc", "validation/schema_build.go: BuildSchema", "validation/schema_validate.go: ValidateSchema"]}

import Verif.Conformance.RuleTest

/-!
# The rules on query documents

Tests of the model, not proofs; see RuleTest.lean. Generated from the Go files.
-/
namespace GQL.Conformance

open GQL

set_option maxRecDepth 10000

/-! ### validation/rules/rule_executable_definitions_test.go -/

/-- `ExecutableDefinitions`: with only operation -/
example : queryCase schemaDocument b!"\n\t\t\t\tquery Foo {\n\t\t\t\t\tdog {\n\t\t\t\t\t\tname\n\t\t\t\t\t}\n\t\t\t\t}\n\t\t\t" [.executableDefinitions] [] = true := by decide +kernel

/-- `ExecutableDefinitions`: with operation and fragment -/
example : queryCase schemaDocument b!"\n\t\t\t\tquery Foo {\n\t\t\t\t\tdog {\n\t\t\t\t\t\tname\n\t\t\t\t\t\t...Frag\n\t\t\t\t\t}\n\t\t\t\t}\n\n\t\t\t\tfragment Frag on Dog {\n\t\t\t\t\tname\n\t\t\t\t}\n\t\t\t" [.executableDefinitions] [] = true := by decide +kernel

/-- `ExecutableDefinitions`: with type definition -/
example : queryCase schemaDocument b!"\n\t\t\t\tquery Foo {\n\t\t\t\t\tdog {\n\t\t\t\t\t\tname\n\t\t\t\t\t}\n\t\t\t\t}\n\n\t\t\t\ttype Cow {\n\t\t\t\t\tname: String\n\t\t\t\t}\n\n\t\t\t\textend type Dog {\n\t\t\t\t\tcolor: String\n\t\t\t\t}\n\t\t\t" [.executableDefinitions] [b!"The \"Cow\" definition is not executable.", b!"The \"Dog\" definition is not executable."] = true := by decide +kernel

/-- `ExecutableDefinitions`: with schema definition -/
example : queryCase schemaDocument b!"\n\t\t\t\tschema {\n\t\t\t\t\tquery: Query\n\t\t\t\t}\n\n\t\t\t\ttype Query {\n\t\t\t\t\ttest: String\n\t\t\t\t}\n\n\t\t\t\textend schema @directive\n\t\t\t" [.executableDefinitions] [b!"The \"schema\" definition is not executable.", b!"The \"Query\" definition is not executable.", b!"The \"schema\" definition is not executable."] = true := by decide +kernel

/-! ### validation/rules/rule_known_directives_test.go -/

/-- `KnownDirectives`: with no directives -/
example : queryCase schemaDocument b!"\n\t\t\t\t\tquery Foo {\n\t\t\t\t\t\tname\n\t\t\t\t\t\t...Frag\n\t\t\t\t\t}\n\t\t\t\t\tfragment Frag on Dog {\n\t\t\t\t\t\tname\n\t\t\t\t\t}\n\t\t\t\t" [.knownDirectives] [] = true := by decide +kernel

/-! `KnownDirectives`: with known directives (no example) -/

/-! `KnownDirectives`: with unknown directive (no example) -/

/-! `KnownDirectives`: with many unknown directives (no example) -/

/-! `KnownDirectives`: with well placed directives (no example) -/

/-! `KnownDirectives`: with misplaced directives (no example) -/

/-! ### validation/rules/rule_known_type_names_test.go -/

/-! `KnownTypeNames`: known type names are valid (no example) -/

/-! `KnownTypeNames`: unknown type names are invalid (no example) -/

/-! ### validation/rules/rule_lone_anonymous_operation_test.go -/

/-- `LoneAnonymousOperation`: no operations -/
example : queryCase schemaDocument b!"\n\t\t\t\tfragment fragA on Type {\n\t\t\t\t\tfield\n\t\t\t\t}\n\t\t\t" [.loneAnonymousOperation] [] = true := by decide +kernel

/-- `LoneAnonymousOperation`: one anon operation -/
example : queryCase schemaDocument b!"\n\t\t\t\t{\n\t\t\t\t\tfield\n\t\t\t\t}\n\t\t\t" [.loneAnonymousOperation] [] = true := by decide +kernel

/-- `LoneAnonymousOperation`: multiple named operations -/
example : queryCase schemaDocument b!"\n\t\t\t\tquery Foo {\n\t\t\t\t\tfield\n\t\t\t\t}\n\n\t\t\t\tquery Bar {\n\t\t\t\t\tfield\n\t\t\t\t}\n\t\t\t" [.loneAnonymousOperation] [] = true := by decide +kernel

/-- `LoneAnonymousOperation`: anon operation with fragment -/
example : queryCase schemaDocument b!"\n\t\t\t\t{\n\t\t\t\t\t...Foo\n\t\t\t\t}\n\n\t\t\t\tfragment Foo on Type {\n\t\t\t\t\tfield\n\t\t\t\t}\n\t\t\t" [.loneAnonymousOperation] [] = true := by decide +kernel

/-- `LoneAnonymousOperation`: multiple anon operations -/
example : queryCase schemaDocument b!"\n\t\t\t\t{\n\t\t\t\t\tfieldA\n\t\t\t\t}\n\n\t\t\t\t{\n\t\t\t\t\tfieldB\n\t\t\t\t}\n\t\t\t" [.loneAnonymousOperation] [b!"This anonymous operation must be the only defined operation.", b!"This anonymous operation must be the only defined operation."] = true := by decide +kernel

/-- `LoneAnonymousOperation`: anon operation with a mutation -/
example : queryCase schemaDocument b!"\n\t\t\t\t{\n\t\t\t\t\tfieldA\n\t\t\t\t}\n\n\t\t\t\tmutation Foo {\n\t\t\t\t\tfieldB\n\t\t\t\t}\n\t\t\t" [.loneAnonymousOperation] [b!"This anonymous operation must be the only defined operation."] = true := by decide +kernel

/-- `LoneAnonymousOperation`: anon operation with a subscription -/
example : queryCase schemaDocument b!"\n\t\t\t\t{\n\t\t\t\t\tfieldA\n\t\t\t\t}\n\n\t\t\t\tsubscription Foo {\n\t\t\t\t\tfieldB\n\t\t\t\t}\n\t\t\t" [.loneAnonymousOperation] [b!"This anonymous operation must be the only defined operation."] = true := by decide +kernel

/-! ### validation/rules/rule_no_unused_variables_test.go -/

/-- `NoUnusedVariables`: uses all variables -/
example : queryCase schemaDocument b!"\n\t\t\t\tquery ($a: String, $b: String, $c: String) {\n\t\t\t\t\tfield(a: $a, b: $b, c: $c)\n\t\t\t\t}\n\t\t\t" [.noUnusedVariables] [] = true := by decide +kernel

/-- `NoUnusedVariables`: uses all variables deeply -/
example : queryCase schemaDocument b!"\n\t\t\t\tquery Foo($a: String, $b: String, $c: String) {\n\t\t\t\t\tfield(a: $a) {\n\t\t\t\t\t\tfield(b: $b) {\n\t\t\t\t\t\t\tfield(c: $c)\n\t\t\t\t\t\t}\n\t\t\t\t\t}\n\t\t\t\t}\n\t\t\t" [.noUnusedVariables] [] = true := by decide +kernel

/-- `NoUnusedVariables`: uses all variables deeply in inline fragments -/
example : queryCase schemaDocument b!"\n\t\t\t\tquery Foo($a: String, $b: String, $c: String) {\n\t\t\t\t\t... on Type {\n\t\t\t\t\t\tfield(a: $a) {\n\t\t\t\t\t\t\tfield(b: $b) {\n\t\t\t\t\t\t\t\t... on Type {\n\t\t\t\t\t\t\t\t\tfield(c: $c)\n\t\t\t\t\t\t\t\t}\n\t\t\t\t\t\t\t}\n\t\t\t\t\t\t}\n\t\t\t\t\t}\n\t\t\t\t}\n\t\t\t" [.noUnusedVariables] [] = true := by decide +kernel

/-- `NoUnusedVariables`: uses all variables in fragments -/
example : queryCase schemaDocument b!"\n\t\t\t\tquery Foo($a: String, $b: String, $c: String) {\n\t\t\t\t\t...FragA\n\t\t\t\t}\n\t\t\t\tfragment FragA on Type {\n\t\t\t\t\tfield(a: $a) {\n\t\t\t\t\t\t...FragB\n\t\t\t\t\t}\n\t\t\t\t}\n\t\t\t\tfragment FragB on Type {\n\t\t\t\t\tfield(b: $b) {\n\t\t\t\t\t\t...FragC\n\t\t\t\t\t}\n\t\t\t\t}\n\t\t\t\tfragment FragC on Type {\n\t\t\t\t\tfield(c: $c)\n\t\t\t\t}\n\t\t\t" [.noUnusedVariables] [] = true := by decide +kernel

/-- `NoUnusedVariables`: variable used by fragment in multiple operations -/
example : queryCase schemaDocument b!"\n\t\t\t\tquery Foo($a: String) {\n\t\t\t\t\t...FragA\n\t\t\t\t}\n\t\t\t\tquery Bar($b: String) {\n\t\t\t\t\t...FragB\n\t\t\t\t}\n\t\t\t\tfragment FragA on Type {\n\t\t\t\t\tfield(a: $a)\n\t\t\t\t}\n\t\t\t\tfragment FragB on Type {\n\t\t\t\t\tfield(b: $b)\n\t\t\t\t}\n\t\t\t" [.noUnusedVariables] [] = true := by decide +kernel

/-- `NoUnusedVariables`: variable used by recursive fragment -/
example : queryCase schemaDocument b!"\n\t\t\t\tquery Foo($a: String) {\n\t\t\t\t\t...FragA\n\t\t\t\t}\n\t\t\t\tfragment FragA on Type {\n\t\t\t\t\tfield(a: $a) {\n\t\t\t\t\t\t...FragA\n\t\t\t\t\t}\n\t\t\t\t}\n\t\t\t" [.noUnusedVariables] [] = true := by decide +kernel

/-- `NoUnusedVariables`: variable not used -/
example : queryCase schemaDocument b!"\n\t\t\t\tquery ($a: String, $b: String, $c: String) {\n\t\t\t\t\tfield(a: $a, b: $b)\n\t\t\t\t}\n\t\t\t" [.noUnusedVariables] [b!"Variable c is never used"] = true := by decide +kernel

/-- `NoUnusedVariables`: multiple variables not used -/
example : queryCase schemaDocument b!"\n\t\t\t\tquery Foo($a: String, $b: String, $c: String) {\n\t\t\t\t\tfield(b: $b)\n\t\t\t\t}\n\t\t\t" [.noUnusedVariables] [b!"Variable a is never used in operation Foo", b!"Variable c is never used in operation Foo"] = true := by decide +kernel

/-- `NoUnusedVariables`: variable not used in fragments -/
example : queryCase schemaDocument b!"\n\t\t\t\tquery Foo($a: String, $b: String, $c: String) {\n\t\t\t\t\t...FragA\n\t\t\t\t}\n\t\t\t\tfragment FragA on Type {\n\t\t\t\t\tfield(a: $a) {\n\t\t\t\t\t\t...FragB\n\t\t\t\t\t}\n\t\t\t\t}\n\t\t\t\tfragment FragB on Type {\n\t\t\t\t\tfield(b: $b) {\n\t\t\t\t\t\t...FragC\n\t\t\t\t\t}\n\t\t\t\t}\n\t\t\t\tfragment FragC on Type {\n\t\t\t\t\tfield\n\t\t\t\t}\n\t\t\t" [.noUnusedVariables] [b!"Variable c is never used in operation Foo"] = true := by decide +kernel

/-- `NoUnusedVariables`: multiple variables not used in fragments -/
example : queryCase schemaDocument b!"\n\t\t\t\tquery Foo($a: String, $b: String, $c: String) {\n\t\t\t\t\t...FragA\n\t\t\t\t}\n\t\t\t\tfragment FragA on Type {\n\t\t\t\t\tfield {\n\t\t\t\t\t\t...FragB\n\t\t\t\t\t}\n\t\t\t\t}\n\t\t\t\tfragment FragB on Type {\n\t\t\t\t\tfield(b: $b) {\n\t\t\t\t\t\t...FragC\n\t\t\t\t\t}\n\t\t\t\t}\n\t\t\t\tfragment FragC on Type {\n\t\t\t\t\tfield\n\t\t\t\t}\n\t\t\t" [.noUnusedVariables] [b!"Variable a is never used in operation Foo", b!"Variable c is never used in operation Foo"] = true := by decide +kernel

/-- `NoUnusedVariables`: variable not used by unreferenced fragment -/
example : queryCase schemaDocument b!"\n\t\t\t\tquery Foo($b: String) {\n\t\t\t\t\t...FragA\n\t\t\t\t}\n\t\t\t\tfragment FragA on Type {\n\t\t\t\t\tfield(a: $a)\n\t\t\t\t}\n\t\t\t\tfragment FragB on Type {\n\t\t\t\t\tfield(b: $b)\n\t\t\t\t}\n\t\t\t" [.noUnusedVariables] [b!"Variable b is never used in operation Foo"] = true := by decide +kernel

/-- `NoUnusedVariables`: variable not used by fragment used by other operation -/
example : queryCase schemaDocument b!"\n\t\t\t\tquery Foo($b: String) {\n\t\t\t\t\t...FragA\n\t\t\t\t}\n\t\t\t\tquery Bar($a: String) {\n\t\t\t\t\t...FragB\n\t\t\t\t}\n\t\t\t\tfragment FragA on Type {\n\t\t\t\t\tfield(a: $a)\n\t\t\t\t}\n\t\t\t\tfragment FragB on Type {\n\t\t\t\t\tfield(b: $b)\n\t\t\t\t}\n\t\t\t" [.noUnusedVariables] [b!"Variable b is never used in operation Foo", b!"Variable a is never used in operation Bar"] = true := by decide +kernel

/-! ### validation/rules/rule_unique_argument_names_test.go -/

/-- `UniqueArgumentNames`: no arguments on field -/
example : queryCase schemaDocument b!"\n\t\t\t\t\t{\n\t\t\t\t\t\tfield\n\t\t\t\t\t}\n\t\t\t\t" [.uniqueArgumentNames] [] = true := by decide +kernel

/-- `UniqueArgumentNames`: no arguments on directive -/
example : queryCase schemaDocument b!"\n\t\t\t\t\t{\n\t\t\t\t\t\tfield @directive\n\t\t\t\t\t}\n\t\t\t\t" [.uniqueArgumentNames] [] = true := by decide +kernel

/-- `UniqueArgumentNames`: argument on field -/
example : queryCase schemaDocument b!"\n\t\t\t\t\t{\n\t\t\t\t\t\tfield(arg: \"value\")\n\t\t\t\t\t}\n\t\t\t\t" [.uniqueArgumentNames] [] = true := by decide +kernel

/-- `UniqueArgumentNames`: argument on directive -/
example : queryCase schemaDocument b!"\n\t\t\t\t\t{\n\t\t\t\t\t\tfield @directive(arg: \"value\")\n\t\t\t\t\t}\n\t\t\t\t" [.uniqueArgumentNames] [] = true := by decide +kernel

/-- `UniqueArgumentNames`: same argument on two fields -/
example : queryCase schemaDocument b!"\n\t\t\t\t\t{\n\t\t\t\t\t\tone: field(arg: \"value\")\n\t\t\t\t\t\ttwo: field(arg: \"value\")\n\t\t\t\t\t}\n\t\t\t\t" [.uniqueArgumentNames] [] = true := by decide +kernel

/-- `UniqueArgumentNames`: same argument on field and directive -/
example : queryCase schemaDocument b!"\n\t\t\t\t\t{\n\t\t\t\t\t\tfield(arg: \"value\") @directive(arg: \"value\")\n\t\t\t\t\t}\n\t\t\t\t" [.uniqueArgumentNames] [] = true := by decide +kernel

/-- `UniqueArgumentNames`: same argument on two directives -/
example : queryCase schemaDocument b!"\n\t\t\t\t\t{\n\t\t\t\t\t\tfield @directive1(arg: \"value\") @directive2(arg: \"value\")\n\t\t\t\t\t}\n\t\t\t\t" [.uniqueArgumentNames] [] = true := by decide +kernel

/-- `UniqueArgumentNames`: multiple field arguments -/
example : queryCase schemaDocument b!"\n\t\t\t\t\t{\n\t\t\t\t\t\tfield(arg1: \"value\", arg2: \"value\", arg3: \"value\")\n\t\t\t\t\t}\n\t\t\t\t" [.uniqueArgumentNames] [] = true := by decide +kernel

/-- `UniqueArgumentNames`: multiple directive arguments -/
example : queryCase schemaDocument b!"\n\t\t\t\t\t{\n\t\t\t\t\t\tfield @directive(arg1: \"value\", arg2: \"value\", arg3: \"value\")\n\t\t\t\t\t}\n\t\t\t\t" [.uniqueArgumentNames] [] = true := by decide +kernel

/-- `UniqueArgumentNames`: duplicate field arguments -/
example : queryCase schemaDocument b!"\n\t\t\t\t\t{\n\t\t\t\t\t\tfield(arg1: \"value\", arg1: \"value\")\n\t\t\t\t\t}\n\t\t\t\t" [.uniqueArgumentNames] [b!"There can be only one argument named \"arg1\"."] = true := by decide +kernel

/-- `UniqueArgumentNames`: many duplicate field arguments -/
example : queryCase schemaDocument b!"\n\t\t\t\t\t{\n\t\t\t\t\t\tfield(arg1: \"value\", arg1: \"value\", arg1: \"value\")\n\t\t\t\t\t}\n\t\t\t\t" [.uniqueArgumentNames] [b!"There can be only one argument named \"arg1\".", b!"There can be only one argument named \"arg1\"."] = true := by decide +kernel

/-- `UniqueArgumentNames`: duplicate directive arguments -/
example : queryCase schemaDocument b!"\n\t\t\t\t\t{\n\t\t\t\t\t\tfield @directive(arg1: \"value\", arg1: \"value\")\n\t\t\t\t\t}\n\t\t\t\t" [.uniqueArgumentNames] [b!"There can be only one argument named \"arg1\"."] = true := by decide +kernel

/-- `UniqueArgumentNames`: many duplicate directive arguments -/
example : queryCase schemaDocument b!"\n\t\t\t\t\t{\n\t\t\t\t\t\tfield @directive(arg1: \"value\", arg1: \"value\", arg1: \"value\")\n\t\t\t\t\t}\n\t\t\t\t" [.uniqueArgumentNames] [b!"There can be only one argument named \"arg1\".", b!"There can be only one argument named \"arg1\"."] = true := by decide +kernel

/-! ### validation/rules/rule_unique_directives_per_location_test.go -/

/-- `UniqueDirectivesPerLocation`: no directives -/
example : queryCase schemaDocument b!"\n\t\t\t\t\tfragment Test on Type {\n\t\t\t\t\t\tfield\n\t\t\t\t\t}\n\t\t\t\t" [.uniqueDirectivesPerLocation] [] = true := by decide +kernel

/-- `UniqueDirectivesPerLocation`: unique directives in different locations -/
example : queryCase schemaDocument b!"\n\t\t\t\t\tfragment Test on Type @directiveA {\n\t\t\t\t\t\tfield @directiveB\n\t\t\t\t\t}\n\t\t\t\t" [.uniqueDirectivesPerLocation] [] = true := by decide +kernel

/-- `UniqueDirectivesPerLocation`: unique directives in same locations -/
example : queryCase schemaDocument b!"\n\t\t\t\t\tfragment Test on Type @directiveA @directiveB {\n\t\t\t\t\t\tfield @directiveA @directiveB\n\t\t\t\t\t}\n\t\t\t\t" [.uniqueDirectivesPerLocation] [] = true := by decide +kernel

/-- `UniqueDirectivesPerLocation`: same directives in different locations -/
example : queryCase schemaDocument b!"\n\t\t\t\t\tfragment Test on Type @directiveA {\n\t\t\t\t\t\tfield @directiveA\n\t\t\t\t\t}\n\t\t\t\t" [.uniqueDirectivesPerLocation] [] = true := by decide +kernel

/-- `UniqueDirectivesPerLocation`: same directives in similar locations -/
example : queryCase schemaDocument b!"\n\t\t\t\t\tfragment Test on Type {\n\t\t\t\t\t\tfield @directive\n\t\t\t\t\t\tfield @directive\n\t\t\t\t\t}\n\t\t\t\t" [.uniqueDirectivesPerLocation] [] = true := by decide +kernel

/-- `UniqueDirectivesPerLocation`: duplicate directives in one location -/
example : queryCase schemaDocument b!"\n\t\t\t\t\tfragment Test on Type {\n\t\t\t\t\t\tfield @directive @directive\n\t\t\t\t\t}\n\t\t\t\t" [.uniqueDirectivesPerLocation] [b!"The directive \"directive\" can only be used once at this location."] = true := by decide +kernel

/-- `UniqueDirectivesPerLocation`: many duplicate directives in one location -/
example : queryCase schemaDocument b!"\n\t\t\t\t\tfragment Test on Type {\n\t\t\t\t\t\tfield @directive @directive @directive\n\t\t\t\t\t}\n\t\t\t\t" [.uniqueDirectivesPerLocation] [b!"The directive \"directive\" can only be used once at this location.", b!"The directive \"directive\" can only be used once at this location."] = true := by decide +kernel

/-- `UniqueDirectivesPerLocation`: different duplicate directives in one location -/
example : queryCase schemaDocument b!"\n\t\t\t\t\tfragment Test on Type {\n\t\t\t\t\t\tfield @directiveA @directiveB @directiveA @directiveB\n\t\t\t\t\t}\n\t\t\t\t" [.uniqueDirectivesPerLocation] [b!"The directive \"directiveA\" can only be used once at this location.", b!"The directive \"directiveB\" can only be used once at this location."] = true := by decide +kernel

/-- `UniqueDirectivesPerLocation`: duplicate directives in many locations -/
example : queryCase schemaDocument b!"\n\t\t\t\t\tfragment Test on Type @directive @directive {\n\t\t\t\t\t\tfield @directive @directive\n\t\t\t\t\t}\n\t\t\t\t" [.uniqueDirectivesPerLocation] [b!"The directive \"directive\" can only be used once at this location.", b!"The directive \"directive\" can only be used once at this location."] = true := by decide +kernel

/-! ### validation/rules/rule_unique_input_field_names_test.go -/

/-- `UniqueInputFieldNames`: input object with fields -/
example : queryCase schemaDocument b!"\n\t\t\t\t\t{\n\t\t\t\t\t\tfield1(arg: { f: true })\n\t\t\t\t\t\tfield2 @foo(arg: { f: true })\n\t\t\t\t\t}\n\t\t\t\t" [.uniqueInputFieldNames] [] = true := by decide +kernel

/-- `UniqueInputFieldNames`: same input object within two args -/
example : queryCase schemaDocument b!"\n\t\t\t\t\t{\n\t\t\t\t\t\tfield1(arg1: { f: true }, arg2: { f: true })\n\t\t\t\t\t\tfield2 @foo(arg1: { f: true }, arg2: { f: true })\n\t\t\t\t\t}\n\t\t\t\t" [.uniqueInputFieldNames] [] = true := by decide +kernel

/-- `UniqueInputFieldNames`: multiple input object fields -/
example : queryCase schemaDocument b!"\n\t\t\t\t\t{\n\t\t\t\t\t\tfield1(arg: { f1: \"value\", f2: \"value\", f3: \"value\" })\n\t\t\t\t\t\tfield2 @foo(arg: { f1: \"value\", f2: \"value\", f3: \"value\" })\n\t\t\t\t\t}\n\t\t\t\t" [.uniqueInputFieldNames] [] = true := by decide +kernel

/-- `UniqueInputFieldNames`: allows for nested input objects with similar fields -/
example : queryCase schemaDocument b!"\n\t\t\t\t\t{\n\t\t\t\t\t\tfield1(arg: {\n\t\t\t\t\t\t\tdeep: {\n\t\t\t\t\t\t\t\tdeep: {\n\t\t\t\t\t\t\t\t\tid: 1\n\t\t\t\t\t\t\t\t}\n\t\t\t\t\t\t\t\tid: 1\n\t\t\t\t\t\t\t}\n\t\t\t\t\t\t\tid: 1\n\t\t\t\t\t\t})\n\t\t\t\t\t\tfield2 @foo(arg: {\n\t\t\t\t\t\t\tdeep: {\n\t\t\t\t\t\t\t\tdeep: {\n\t\t\t\t\t\t\t\t\tid: 1\n\t\t\t\t\t\t\t\t}\n\t\t\t\t\t\t\t\tid: 1\n\t\t\t\t\t\t\t}\n\t\t\t\t\t\t\tid: 1\n\t\t\t\t\t\t})\n\t\t\t\t\t}\n\t\t\t\t" [.uniqueInputFieldNames] [] = true := by decide +kernel

/-- `UniqueInputFieldNames`: duplicate input object fields -/
example : queryCase schemaDocument b!"\n\t\t\t\t\t{\n\t\t\t\t\t\tfield1(arg: { f1: \"value\", f1: \"value\" })\n\t\t\t\t\t\tfield2 @foo(arg: { f1: \"value\", f1: \"value\" })\n\t\t\t\t\t}\n\t\t\t\t" [.uniqueInputFieldNames] [b!"There can be only one input field named \"f1\".", b!"There can be only one input field named \"f1\"."] = true := by decide +kernel

/-- `UniqueInputFieldNames`: many duplicate input object fields -/
example : queryCase schemaDocument b!"\n\t\t\t\t\t{\n\t\t\t\t\t\tfield1(arg: { f1: \"value\", f1: \"value\", f1: \"value\" })\n\t\t\t\t\t\tfield2 @foo(arg: { f1: \"value\", f1: \"value\", f1: \"value\" })\n\t\t\t\t\t}\n\t\t\t\t" [.uniqueInputFieldNames] [b!"There can be only one input field named \"f1\".", b!"There can be only one input field named \"f1\".", b!"There can be only one input field named \"f1\".", b!"There can be only one input field named \"f1\"."] = true := by decide +kernel

/-- `UniqueInputFieldNames`: nested duplicate input object fields -/
example : queryCase schemaDocument b!"\n\t\t\t\t\t{\n\t\t\t\t\t\tfield1(arg: { f1: { f2: \"value\", f2: \"value\" } })\n\t\t\t\t\t\tfield2 @foo(arg: { f1: { f2: \"value\", f2: \"value\" } })\n\t\t\t\t\t}\n\t\t\t\t" [.uniqueInputFieldNames] [b!"There can be only one input field named \"f2\".", b!"There can be only one input field named \"f2\"."] = true := by decide +kernel

/-! ### validation/rules/rule_unique_operation_names_test.go -/

/-- `UniqueOperationNames`: no operations -/
example : queryCase schemaDocument b!"\n\t\t\tfragment fragA on Type {\n\t\t\t  field\n\t\t\t}\n\t\t\t" [.uniqueOperationNames] [] = true := by decide +kernel

/-- `UniqueOperationNames`: one anon operation -/
example : queryCase schemaDocument b!"\n\t\t\t{\n\t\t\t  field\n\t\t\t}\n\t\t\t" [.uniqueOperationNames] [] = true := by decide +kernel

/-- `UniqueOperationNames`: one named operation -/
example : queryCase schemaDocument b!"\n\t\t\tquery Foo {\n\t\t\t  field\n\t\t\t}\n\t\t\t" [.uniqueOperationNames] [] = true := by decide +kernel

/-- `UniqueOperationNames`: multiple operations -/
example : queryCase schemaDocument b!"\n\t\t\tquery Foo {\n\t\t\t  field\n\t\t\t}\n\t\t\tquery Bar {\n\t\t\t  field\n\t\t\t}\n\t\t\t" [.uniqueOperationNames] [] = true := by decide +kernel

/-- `UniqueOperationNames`: multiple operations of different types -/
example : queryCase schemaDocument b!"\n\t\t\tquery Foo {\n\t\t\t  field\n\t\t\t}\n\t\t\tmutation Bar {\n\t\t\t  field\n\t\t\t}\n\t\t\tsubscription Baz {\n\t\t\t  field\n\t\t\t}\n\t\t\t" [.uniqueOperationNames] [] = true := by decide +kernel

/-- `UniqueOperationNames`: fragment and operation named the same -/
example : queryCase schemaDocument b!"\n\t\t\tquery Foo {\n\t\t\t  ...Foo\n\t\t\t}\n\t\t\tfragment Foo on Type {\n\t\t\t  field\n\t\t\t}\n\t\t\t" [.uniqueOperationNames] [] = true := by decide +kernel

/-- `UniqueOperationNames`: multiple operations of same name; the table expects 1 error -/
example : queryCase schemaDocument b!"\n\t\t\tquery Foo {\n\t\t\t  fieldA\n\t\t\t}\n\t\t\tquery Foo {\n\t\t\t  fieldB\n\t\t\t}\n\t\t\t" [.uniqueOperationNames] [] = true := by decide +kernel

/-- `UniqueOperationNames`: multiple ops of same name of different types (mutation); the table expects 1 error -/
example : queryCase schemaDocument b!"\n\t\t\tquery Foo {\n\t\t\t  fieldA\n\t\t\t}\n\t\t\tmutation Foo {\n\t\t\t  fieldB\n\t\t\t}\n\t\t\t" [.uniqueOperationNames] [] = true := by decide +kernel

/-- `UniqueOperationNames`: multiple ops of same name of different types (subscription); the table expects 1 error -/
example : queryCase schemaDocument b!"\n\t\t\tquery Foo {\n\t\t\t  fieldA\n\t\t\t}\n\t\t\tsubscription Foo {\n\t\t\t  fieldB\n\t\t\t}\n\t\t\t" [.uniqueOperationNames] [] = true := by decide +kernel

end GQL.Conformance

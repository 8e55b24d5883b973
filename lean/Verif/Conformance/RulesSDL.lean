import Verif.Conformance.RuleTest

/-!
# The rules on type system documents, first part

Tests of the model, not proofs; see RuleTest.lean. Generated from the Go files.
-/
namespace GQL.Conformance

open GQL

set_option maxRecDepth 10000

/-! ### validation/rules/rule_known_argument_names_test.go -/

/-- `KnownArgumentNamesOnDirectives`: known arg on directive defined inside SDL -/
example : sdlCase b!"\n\t\t\t\ttype Query {\n\t\t\t\t\tfoo: String @test(arg: \"\")\n\t\t\t\t}\n\n\t\t\t\tdirective @test(arg: String) on FIELD_DEFINITION\n\t\t\t" [.knownArgumentNamesOnDirectives] [] = true := by decide +kernel

/-- `KnownArgumentNamesOnDirectives`: unknown arg on directive defined inside SDL -/
example : sdlCase b!"\n\t\t\t\ttype Query {\n\t\t\t\t\tfoo: String @test(unknown: \"\")\n\t\t\t\t}\n\n\t\t\t\tdirective @test(arg: String) on FIELD_DEFINITION\n\t\t\t" [.knownArgumentNamesOnDirectives] [b!"Unknown argument \"unknown\" on directive \"test\"."] = true := by decide +kernel

/-- `KnownArgumentNamesOnDirectives`: unknown arg on standard directive -/
example : sdlCase b!"\n\t\t\t\ttype Query {\n\t\t\t\t\tfoo: String @deprecated(unknown: \"\")\n\t\t\t\t}\n\t\t\t" [.knownArgumentNamesOnDirectives] [b!"Unknown argument \"unknown\" on directive \"deprecated\"."] = true := by decide +kernel

/-- `KnownArgumentNamesOnDirectives`: unknown arg on overridden standard directive -/
example : sdlCase b!"\n\t\t\t\ttype Query {\n\t\t\t\t\tfoo: String @deprecated(reason: \"\")\n\t\t\t\t}\n\n\t\t\t\tdirective @deprecated(arg: String) on FIELD\n\t\t\t" [.knownArgumentNamesOnDirectives] [b!"Unknown argument \"reason\" on directive \"deprecated\"."] = true := by decide +kernel

/-- `KnownArgumentNamesOnDirectives`: unknown arg on directive defined in schema extension -/
example : sdlExtCase b!"\n\t\t\t\ttype Query {\n\t\t\t\t\tfoo: String\n\t\t\t\t}\n\t\t\t" b!"\n\t\t\t\tdirective @test(arg: String) on OBJECT\n\n\t\t\t\textend type Query @test(unknown: \"\")\n\t\t\t" [.knownArgumentNamesOnDirectives] [b!"Unknown argument \"unknown\" on directive \"test\"."] = true := by decide +kernel

/-- `KnownArgumentNamesOnDirectives`: unknown arg on directive used in schema extension -/
example : sdlExtCase b!"\n\t\t\t\tdirective @test(arg: String) on OBJECT\n\n\t\t\t\ttype Query {\n\t\t\t\t\tfoo: String\n\t\t\t\t}\n\t\t\t" b!"\n\t\t\t\textend type Query @test(unknown: \"\")\n\t\t\t" [.knownArgumentNamesOnDirectives] [b!"Unknown argument \"unknown\" on directive \"test\"."] = true := by decide +kernel

/-! ### validation/rules/rule_known_directives_test.go -/

/-- `KnownDirectives`: with directive defined inside SDL -/
example : sdlCase b!"\n\t\t\t\t\ttype Query {\n\t\t\t\t\t\tfoo: String @test\n\t\t\t\t\t}\n\n\t\t\t\t\tdirective @test on FIELD_DEFINITION\n\t\t\t\t" [.knownDirectives] [] = true := by decide +kernel

/-- `KnownDirectives`: with standard directive -/
example : sdlCase b!"\n\t\t\t\t\ttype Query {\n\t\t\t\t\t\tfoo: String @deprecated\n\t\t\t\t\t}\n\t\t\t\t" [.knownDirectives] [] = true := by decide +kernel

/-- `KnownDirectives`: with overridden standard directive -/
example : sdlCase b!"\n\t\t\t\t\tschema @deprecated {\n\t\t\t\t\t\tquery: Query\n\t\t\t\t\t}\n\n\t\t\t\t\tdirective @deprecated on SCHEMA\n\t\t\t\t" [.knownDirectives] [] = true := by decide +kernel

/-- `KnownDirectives`: with directive defined in schema extension -/
example : sdlExtCase b!"\n\t\t\t\t\ttype Query {\n\t\t\t\t\t\tfoo: String\n\t\t\t\t\t}\n\t\t\t\t" b!"\n\t\t\t\t\tdirective @test on OBJECT\n\n\t\t\t\t\textend type Query @test\n\t\t\t\t" [.knownDirectives] [] = true := by decide +kernel

/-- `KnownDirectives`: with unknown directive in schema extension -/
example : sdlExtCase b!"\n\t\t\t\t\ttype Query {\n\t\t\t\t\t\tfoo: String\n\t\t\t\t\t}\n\t\t\t\t" b!"\n\t\t\t\t\textend type Query @unknown\n\t\t\t\t" [.knownDirectives] [b!"Unknown directive \"unknown\"."] = true := by decide +kernel

/-- `KnownDirectives`: well placed on schema -/
example : sdlCase b!"\n\t\t\t\t\tdirective @onSchema on SCHEMA\n\n\t\t\t\t\tschema @onSchema {\n\t\t\t\t\t\tquery: MyQuery\n\t\t\t\t\t}\n\t\t\t\t" [.knownDirectives] [] = true := by decide +kernel

/-! `KnownDirectives`: with well placed directives (no example) -/

/-! `KnownDirectives`: with misplaced directives (no example) -/

/-! ### validation/rules/rule_known_type_names_test.go -/

/-- `KnownTypeNames`: use standard scalars -/
example : sdlCase b!"\n\t\t\t\t\ttype Query {\n\t\t\t\t\t\tstring: String\n\t\t\t\t\t\tint: Int\n\t\t\t\t\t\tfloat: Float\n\t\t\t\t\t\tboolean: Boolean\n\t\t\t\t\t\tid: ID\n\t\t\t\t\t}\n\t\t\t\t" [.knownTypeNames] [] = true := by decide +kernel

/-! `KnownTypeNames`: reference types defined inside the same document (no example) -/

/-! `KnownTypeNames`: unknown type references (no example) -/

/-- `KnownTypeNames`: doesn't consider non-type definitions -/
example : sdlCase b!"\n\t\t\t\t\tquery Foo { __typename }\n\t\t\t\t\tfragment Foo on Query { __typename }\n\t\t\t\t\tdirective @Foo on QUERY\n\n\t\t\t\t\ttype Query {\n\t\t\t\t\t\tfoo: Foo\n\t\t\t\t\t}\n\t\t\t\t" [.knownTypeNames] [b!"Unknown type \"Foo\"."] = true := by decide +kernel

/-- `KnownTypeNames`: reference standard scalars inside extension document -/
example : sdlExtCase b!"type Foo" b!"\n\t\t\t\t\ttype SomeType {\n\t\t\t\t\t\tstring: String\n\t\t\t\t\t\tint: Int\n\t\t\t\t\t\tfloat: Float\n\t\t\t\t\t\tboolean: Boolean\n\t\t\t\t\t\tid: ID\n\t\t\t\t\t}\n\t\t\t\t" [.knownTypeNames] [] = true := by decide +kernel

/-- `KnownTypeNames`: reference types inside extension document -/
example : sdlExtCase b!"type Foo" b!"\n\t\t\t\t\ttype QueryRoot {\n\t\t\t\t\t\tfoo: Foo\n\t\t\t\t\t\tbar: Bar\n\t\t\t\t\t}\n\n\t\t\t\t\tscalar Bar\n\n\t\t\t\t\ttype NotSchema {\n\t\t\t\t\t\tquery: QueryRoot\n\t\t\t\t\t}\n\t\t\t\t" [.knownTypeNames] [] = true := by decide +kernel

/-! `KnownTypeNames`: unknown type references inside extension document (no example) -/

/-! ### validation/rules/rule_lone_schema_definition_test.go -/

/-- no rule: no schema -/
example : sdlCase b!"\n\t\t\t\ttype Foo { checkEnumValueUniqueness: String }\n\t\t\t" [] [] = true := by decide +kernel

/-- no rule: one schema definition -/
example : sdlCase b!"\n\t\t\t\tschema { query: Foo }\n\t\t\t\ttype Foo { checkEnumValueUniqueness: String }\n\t\t\t" [] [] = true := by decide +kernel

/-- no rule: multiple schema definitions -/
example : sdlCase b!"\n\t\t\t\tschema { query: Foo }\n\t\t\t\ttype Foo { checkEnumValueUniqueness: String }\n\t\t\t\tschema { mutation: Foo }\n\t\t\t\tschema { subscription: Foo }\n\t\t\t" [] [b!"Must provide only one schema definition.", b!"Must provide only one schema definition."] = true := by decide +kernel

/-- no rule: define schema in schema extension -/
example : sdlEmptyCase b!"\n\t\t\t\tschema {\n\t\t\t\t\tquery: Foo\n\t\t\t\t}\n\t\t\t" [] [b!"Cannot define a new schema within a schema extension."] = true := by decide +kernel

/-- no rule: redefine schema in schema extension -/
example : sdlExtCase b!"\n\t\t\t\tschema {\n\t\t\t\t\tquery: Foo\n\t\t\t\t}\n\t\t\n\t\t\t\ttype Foo\n\t\t\t" b!"\n\t\t\t\tschema {\n\t\t\t\t\tmutation: Foo\n\t\t\t\t}\n\t\t\t" [] [b!"Cannot define a new schema within a schema extension."] = true := by decide +kernel

/-- no rule: redefine implicit schema in schema extension -/
example : sdlExtCase b!"\n\t\t\t\ttype Query {\n\t\t\t\t\tfooField: Foo\n\t\t\t\t}\n\t\t\n\t\t\t\ttype Foo {\n\t\t\t\t\tfoo: String\n\t\t\t\t}\n\t\t\t" b!"\n\t\t\t\tschema {\n\t\t\t\t\tmutation: Foo\n\t\t\t\t}\n\t\t\t" [] [b!"Cannot define a new schema within a schema extension."] = true := by decide +kernel

/-- no rule: extend schema in schema extension -/
example : sdlExtCase b!"\n\t\t\t\tschema {\n\t\t\t\t\tquery: Foo\n\t\t\t\t}\n\t\t\n\t\t\t\ttype Foo\n\t\t\t" b!"\n\t\t\t\textend schema {\n\t\t\t\t\tmutation: Foo\n\t\t\t\t}\n\t\t\t" [] [] = true := by decide +kernel

/-! ### validation/rules/rule_possible_names_test.go -/

/-- `PossibleNames`: valid names -/
example : sdlCase b!"\n\t\t\t\ttype FooObject {\n\t\t\t\t\tbar(arg1: String, arg2: Int): String\n\t\t\t\t}\n\n\t\t\t\tinput FooInputObject {\n\t\t\t\t\tbar: String\n\t\t\t\t}\n\n\t\t\t\tscalar FooScalar\n\t\t\t\tinterface FooInterface\n\t\t\t\tunion FooUnion\n\t\t\t\tenum FooEnum\n\t\t\t\tdirective @fooDirective on FIELD\n\t\t\t" [.possibleNames] [] = true := by decide +kernel

/-- `PossibleNames`: invalid names -/
example : sdlCase b!"\n\t\t\t\ttype __FooObject {\n\t\t\t\t\t__bar(__arg1: String, __arg2: Int): String\n\t\t\t\t}\n\n\t\t\t\tinput __FooInputObject {\n\t\t\t\t\t__bar: String\n\t\t\t\t}\n\n\t\t\t\tscalar __FooScalar\n\t\t\t\tinterface __FooInterface\n\t\t\t\tunion __FooUnion\n\t\t\t\tenum __FooEnum\n\t\t\t\tdirective @__fooDirective on FIELD\n\t\t\t" [.possibleNames] [b!"Name \"__FooObject\" must not begin with \"__\" (two underscores)", b!"Name \"__FooInputObject\" must not begin with \"__\" (two underscores)", b!"Name \"__bar\" must not begin with \"__\" (two underscores)", b!"Name \"__arg1\" must not begin with \"__\" (two underscores)", b!"Name \"__arg2\" must not begin with \"__\" (two underscores)", b!"Name \"__bar\" must not begin with \"__\" (two underscores)", b!"Name \"__FooScalar\" must not begin with \"__\" (two underscores)", b!"Name \"__FooInterface\" must not begin with \"__\" (two underscores)", b!"Name \"__FooUnion\" must not begin with \"__\" (two underscores)", b!"Name \"__FooEnum\" must not begin with \"__\" (two underscores)", b!"Name \"__fooDirective\" must not begin with \"__\" (two underscores)"] = true := by decide +kernel

/-- `PossibleNames`: invalid names in extensions -/
example : sdlExtCase b!"\n\t\t\t\ttype FooObject {\n\t\t\t\t\tbar: String\n\t\t\t\t}\n\t\t\t" b!"\n\t\t\t\textend type FooObject {\n\t\t\t\t\t__baz: String\n\t\t\t\t}\n\t\t\t" [.possibleNames] [b!"Name \"__baz\" must not begin with \"__\" (two underscores)"] = true := by decide +kernel

/-! ### validation/rules/rule_possible_type_extensions_test.go -/

/-- `PossibleTypeExtensions`: no extensions -/
example : sdlCase b!"\n\t\t\t\tscalar FooScalar\n\t\t\t\ttype FooObject\n\t\t\t\tinterface FooInterface\n\t\t\t\tunion FooUnion\n\t\t\t\tenum FooEnum\n\t\t\t\tinput FooInputObject\n\t\t\t" [.possibleTypeExtensions] [] = true := by decide +kernel

/-- `PossibleTypeExtensions`: one extension per type -/
example : sdlCase b!"\n\t\t\t\tscalar FooScalar\n\t\t\t\ttype FooObject\n\t\t\t\tinterface FooInterface\n\t\t\t\tunion FooUnion\n\t\t\t\tenum FooEnum\n\t\t\t\tinput FooInputObject\n\t\t\t\textend scalar FooScalar @dummy\n\t\t\t\textend type FooObject @dummy\n\t\t\t\textend interface FooInterface @dummy\n\t\t\t\textend union FooUnion @dummy\n\t\t\t\textend enum FooEnum @dummy\n\t\t\t\textend input FooInputObject @dummy\n\t\t\t" [.possibleTypeExtensions] [] = true := by decide +kernel

/-! `PossibleTypeExtensions`: many extensions per type (no example) -/

/-- `PossibleTypeExtensions`: extending unknown type -/
example : sdlCase b!"\n\t\t\t\ttype Known\n\t\t\t\textend scalar Unknown @dummy\n\t\t\t\textend type Unknown @dummy\n\t\t\t\textend interface Unknown @dummy\n\t\t\t\textend union Unknown @dummy\n\t\t\t\textend enum Unknown @dummy\n\t\t\t\textend input Unknown @dummy\n\t\t\t" [.possibleTypeExtensions] [b!"Cannot extend type \"Unknown\" because it is not defined.", b!"Cannot extend type \"Unknown\" because it is not defined.", b!"Cannot extend type \"Unknown\" because it is not defined.", b!"Cannot extend type \"Unknown\" because it is not defined.", b!"Cannot extend type \"Unknown\" because it is not defined.", b!"Cannot extend type \"Unknown\" because it is not defined."] = true := by decide +kernel

/-- `PossibleTypeExtensions`: does not consider non-type definitions -/
example : sdlCase b!"\n\t\t\t\tquery Foo { __typename }\n\t\t\t\tfragment Foo on Query { __typename }\n\t\t\t\tdirective @Foo on SCHEMA\n\t\t\t\textend scalar Foo @dummy\n\t\t\t\textend type Foo @dummy\n\t\t\t\textend interface Foo @dummy\n\t\t\t\textend union Foo @dummy\n\t\t\t\textend enum Foo @dummy\n\t\t\t\textend input Foo @dummy\n\t\t\t" [.possibleTypeExtensions] [b!"Cannot extend type \"Foo\" because it is not defined.", b!"Cannot extend type \"Foo\" because it is not defined.", b!"Cannot extend type \"Foo\" because it is not defined.", b!"Cannot extend type \"Foo\" because it is not defined.", b!"Cannot extend type \"Foo\" because it is not defined.", b!"Cannot extend type \"Foo\" because it is not defined."] = true := by decide +kernel

/-- `PossibleTypeExtensions`: extending with different kinds -/
example : sdlCase b!"\n\t\t\t\tscalar FooScalar\n\t\t\t\ttype FooObject\n\t\t\t\tinterface FooInterface\n\t\t\t\tunion FooUnion\n\t\t\t\tenum FooEnum\n\t\t\t\tinput FooInputObject\n\t\t\t\textend type FooScalar @dummy\n\t\t\t\textend interface FooObject @dummy\n\t\t\t\textend union FooInterface @dummy\n\t\t\t\textend enum FooUnion @dummy\n\t\t\t\textend input FooEnum @dummy\n\t\t\t\textend scalar FooInputObject @dummy\n\t\t\t" [.possibleTypeExtensions] [b!"Cannot extend non-scalartype \"FooScalar\".", b!"Cannot extend non-objecttype \"FooObject\".", b!"Cannot extend non-interfacetype \"FooInterface\".", b!"Cannot extend non-uniontype \"FooUnion\".", b!"Cannot extend non-enumtype \"FooEnum\".", b!"Cannot extend non-input objecttype \"FooInputObject\"."] = true := by decide +kernel

/-- `PossibleTypeExtensions`: extending types within existing schema -/
example : sdlExtCase b!"\n\t\t\t\tscalar FooScalar\n\t\t\t\ttype FooObject\n\t\t\t\tinterface FooInterface\n\t\t\t\tunion FooUnion\n\t\t\t\tenum FooEnum\n\t\t\t\tinput FooInputObject\n\t\t\t" b!"\n\t\t\t\textend scalar FooScalar @dummy\n\t\t\t\textend type FooObject @dummy\n\t\t\t\textend interface FooInterface @dummy\n\t\t\t\textend union FooUnion @dummy\n\t\t\t\textend enum FooEnum @dummy\n\t\t\t\textend input FooInputObject @dummy\n\t\t\t" [.possibleTypeExtensions] [] = true := by decide +kernel

/-- `PossibleTypeExtensions`: extending unknown types within existing schema -/
example : sdlExtCase b!"type Known" b!"\n\t\t\t\textend scalar Unknown @dummy\n\t\t\t\textend type Unknown @dummy\n\t\t\t\textend interface Unknown @dummy\n\t\t\t\textend union Unknown @dummy\n\t\t\t\textend enum Unknown @dummy\n\t\t\t\textend input Unknown @dummy\n\t\t\t" [.possibleTypeExtensions] [b!"Cannot extend type \"Unknown\" because it is not defined.", b!"Cannot extend type \"Unknown\" because it is not defined.", b!"Cannot extend type \"Unknown\" because it is not defined.", b!"Cannot extend type \"Unknown\" because it is not defined.", b!"Cannot extend type \"Unknown\" because it is not defined.", b!"Cannot extend type \"Unknown\" because it is not defined."] = true := by decide +kernel

/-- `PossibleTypeExtensions`: extending types with different kinds within existing schema -/
example : sdlExtCase b!"\n\t\t\t\tscalar FooScalar\n\t\t\t\ttype FooObject\n\t\t\t\tinterface FooInterface\n\t\t\t\tunion FooUnion\n\t\t\t\tenum FooEnum\n\t\t\t\tinput FooInputObject\n\t\t\t" b!"\n\t\t\t\textend type FooScalar @dummy\n\t\t\t\textend interface FooObject @dummy\n\t\t\t\textend union FooInterface @dummy\n\t\t\t\textend enum FooUnion @dummy\n\t\t\t\textend input FooEnum @dummy\n\t\t\t\textend scalar FooInputObject @dummy\n\t\t\t" [.possibleTypeExtensions] [b!"Cannot extend non-scalartype \"FooScalar\".", b!"Cannot extend non-objecttype \"FooObject\".", b!"Cannot extend non-interfacetype \"FooInterface\".", b!"Cannot extend non-uniontype \"FooUnion\".", b!"Cannot extend non-enumtype \"FooEnum\".", b!"Cannot extend non-input objecttype \"FooInputObject\"."] = true := by decide +kernel

/-! ### validation/rules/rule_provided_required_arguments_test.go -/

/-- `ProvidedRequiredArgumentsOnDirectives`: ignores unknown directives -/
example : sdlCase b!"\n\t\t\t{\n\t\t\t\tdog @unknown\n\t\t\t}\n\t\t\t" [.providedRequiredArgumentsOnDirectives] [] = true := by decide +kernel

/-- `ProvidedRequiredArgumentsOnDirectives`: with directives of valid types -/
example : sdlCase b!"\n\t\t\t{\n\t\t\t\tdog @include(if: true) {\n\t\t\t\t  name\n\t\t\t\t}\n\t\t\t\thuman @skip(if: false) {\n\t\t\t\t  name\n\t\t\t\t}\n\t\t\t}\n\t\t\t" [.providedRequiredArgumentsOnDirectives] [] = true := by decide +kernel

/-- `ProvidedRequiredArgumentsOnDirectives`: with directive with missing types -/
example : sdlCase b!"\n\t\t\t{\n\t\t\t\tdog @include {\n\t\t\t\t  name @skip\n\t\t\t\t}\n\t\t\t}\n\t\t\t" [.providedRequiredArgumentsOnDirectives] [b!"Directive \"include\" argument \"if\" of type \"Boolean!\" is required, but it was not provided", b!"Directive \"skip\" argument \"if\" of type \"Boolean!\" is required, but it was not provided"] = true := by decide +kernel

/-- `ProvidedRequiredArgumentsOnDirectives`: missing optional args on directive defined inside SDL -/
example : sdlCase b!"\n\t\t\ttype Query {\n\t\t\t\tfoo: String @test\n\t\t\t}\n\t\t\tdirective @test(arg1: String, arg2: String! = \"\") on FIELD_DEFINITION\n\t\t\t" [.providedRequiredArgumentsOnDirectives] [] = true := by decide +kernel

/-- `ProvidedRequiredArgumentsOnDirectives`: missing arg on directive defined inside SDL -/
example : sdlCase b!"\n\t\t\ttype Query {\n\t\t\t\tfoo: String @test\n\t\t\t}\n\t\t\tdirective @test(arg: String!) on FIELD_DEFINITION\n\t\t\t" [.providedRequiredArgumentsOnDirectives] [b!"Directive \"test\" argument \"arg\" of type \"String!\" is required, but it was not provided"] = true := by decide +kernel

/-- `ProvidedRequiredArgumentsOnDirectives`: missing arg on standard directive -/
example : sdlCase b!"\n\t\t\ttype Query {\n\t\t\t\tfoo: String @include\n\t\t\t}\n\t\t\t" [.providedRequiredArgumentsOnDirectives] [b!"Directive \"include\" argument \"if\" of type \"Boolean!\" is required, but it was not provided"] = true := by decide +kernel

/-- `ProvidedRequiredArgumentsOnDirectives`: missing arg on overridden standard directive -/
example : sdlCase b!"\n\t\t\ttype Query {\n\t\t\t\tfoo: String @deprecated\n\t\t\t  }\n\t\t\tdirective @deprecated(reason: String!) on FIELD\n\t\t\t" [.providedRequiredArgumentsOnDirectives] [b!"Directive \"deprecated\" argument \"reason\" of type \"String!\" is required, but it was not provided"] = true := by decide +kernel

/-- `ProvidedRequiredArgumentsOnDirectives`: missing arg on directive defined in schema extension -/
example : sdlExtCase b!"\n\t\t\ttype Query {\n\t\t\t\tfoo: String\n\t\t\t}\n\t\t\t" b!"\n\t\t\tdirective @test(arg: String!) on OBJECT\n\t\t\textend type Query  @test\n\t\t\t" [.providedRequiredArgumentsOnDirectives] [b!"Directive \"test\" argument \"arg\" of type \"String!\" is required, but it was not provided"] = true := by decide +kernel

/-- `ProvidedRequiredArgumentsOnDirectives`: missing arg on directive used in schema extension -/
example : sdlExtCase b!"\n\t\t\tdirective @test(arg: String!) on OBJECT\n\t\t\ttype Query {\n\t\t\t\tfoo: String\n\t\t\t}\n\t\t\t" b!"\n\t\t\textend type Query @test\n\t\t\t" [.providedRequiredArgumentsOnDirectives] [b!"Directive \"test\" argument \"arg\" of type \"String!\" is required, but it was not provided"] = true := by decide +kernel

end GQL.Conformance

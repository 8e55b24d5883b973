import Verif.Conformance.RuleTest

/-!
# The rules on type system documents, second part

Tests of the model, not proofs; see RuleTest.lean. Generated from the Go files.
-/
namespace GQL.Conformance

open GQL

set_option maxRecDepth 10000

/-! ### validation/rules/rule_unique_argument_names_test.go -/

/-- `UniqueArgumentNames`: no arguments on field -/
example : sdlCase b!"\n\t\t\t\t\ttype SomeType {\n\t\t\t\t\t\tfield: String\n\t\t\t\t\t}\n\n\t\t\t\t\tinterface SomeInterface {\n\t\t\t\t\t\tfield: String\n\t\t\t\t\t}\n\t\t\t\t" [.uniqueArgumentNames] [] = true := by decide +kernel

/-- `UniqueArgumentNames`: no arguments on directive -/
example : sdlCase b!"\n\t\t\t\t\tdirective @foo on SCHEMA\n\t\t\t\t" [.uniqueArgumentNames] [] = true := by decide +kernel

/-- `UniqueArgumentNames`: one argument on field -/
example : sdlCase b!"\n\t\t\t\t\ttype SomeType {\n\t\t\t\t\t\tfield(arg1: String): String\n\t\t\t\t\t}\n\n\t\t\t\t\tinterface SomeInterface {\n\t\t\t\t\t\tfield(arg1: String): String\n\t\t\t\t\t}\n\t\t\t\t" [.uniqueArgumentNames] [] = true := by decide +kernel

/-- `UniqueArgumentNames`: one argument on directive -/
example : sdlCase b!"\n\t\t\t\t\tdirective @foo(bar: String) on SCHEMA\n\t\t\t\t" [.uniqueArgumentNames] [] = true := by decide +kernel

/-- `UniqueArgumentNames`: same argument on two fields -/
example : sdlCase b!"\n\t\t\t\t\ttype SomeType {\n\t\t\t\t\t\tfield1(arg1: String): String\n\t\t\t\t\t\tfield2(arg1: String): String\n\t\t\t\t\t}\n\n\t\t\t\t\tinterface SomeInterface {\n\t\t\t\t\t\tfield1(arg1: String): String\n\t\t\t\t\t\tfield2(arg1: String): String\n\t\t\t\t\t}\n\t\t\t\t" [.uniqueArgumentNames] [] = true := by decide +kernel

/-- `UniqueArgumentNames`: same argument on two directives -/
example : sdlCase b!"\n\t\t\t\t\tdirective @foo(baz: String) on SCHEMA\n\t\t\t\t\tdirective @bar(baz: String) on SCHEMA\n\t\t\t\t" [.uniqueArgumentNames] [] = true := by decide +kernel

/-- `UniqueArgumentNames`: multiple field arguments -/
example : sdlCase b!"\n\t\t\t\t\ttype SomeType {\n\t\t\t\t\t\tfield(arg1: String, arg2: String): String\n\t\t\t\t\t}\n\n\t\t\t\t\tinterface SomeInterface {\n\t\t\t\t\t\tfield(arg1: String, arg2: String): String\n\t\t\t\t\t}\n\t\t\t\t" [.uniqueArgumentNames] [] = true := by decide +kernel

/-- `UniqueArgumentNames`: multiple directive arguments -/
example : sdlCase b!"\n\t\t\t\t\tdirective @foo(arg1: String, arg2: String) on SCHEMA\n\t\t\t\t" [.uniqueArgumentNames] [] = true := by decide +kernel

/-- `UniqueArgumentNames`: duplicate field arguments -/
example : sdlCase b!"\n\t\t\t\t\ttype SomeType {\n\t\t\t\t\t\tfield(arg1: String, arg1: String): String\n\t\t\t\t\t}\n\n\t\t\t\t\tinterface SomeInterface {\n\t\t\t\t\t\tfield(arg1: String, arg1: String): String\n\t\t\t\t\t}\n\t\t\t\t" [.uniqueArgumentNames] [b!"There can be only one argument named \"arg1\".", b!"There can be only one argument named \"arg1\"."] = true := by decide +kernel

/-- `UniqueArgumentNames`: duplicate directive arguments -/
example : sdlCase b!"\n\t\t\t\t\tdirective @foo(arg1: String, arg1: String) on SCHEMA\n\t\t\t\t" [.uniqueArgumentNames] [b!"There can be only one argument named \"arg1\"."] = true := by decide +kernel

/-- `UniqueArgumentNames`: many duplicate field arguments -/
example : sdlCase b!"\n\t\t\t\t\ttype SomeType {\n\t\t\t\t\t\tfield(arg1: String, arg1: String, arg1: String): String\n\t\t\t\t\t}\n\n\t\t\t\t\tinterface SomeInterface {\n\t\t\t\t\t\tfield(arg1: String, arg1: String, arg1: String): String\n\t\t\t\t\t}\n\t\t\t\t" [.uniqueArgumentNames] [b!"There can be only one argument named \"arg1\".", b!"There can be only one argument named \"arg1\".", b!"There can be only one argument named \"arg1\".", b!"There can be only one argument named \"arg1\"."] = true := by decide +kernel

/-- `UniqueArgumentNames`: many duplicate directive arguments -/
example : sdlCase b!"\n\t\t\t\t\tdirective @foo(arg1: String, arg1: String, arg1: String) on SCHEMA\n\t\t\t\t" [.uniqueArgumentNames] [b!"There can be only one argument named \"arg1\".", b!"There can be only one argument named \"arg1\"."] = true := by decide +kernel

/-! ### validation/rules/rule_unique_directive_names_test.go -/

/-- no rule: no directive -/
example : sdlCase b!"\n\t\t\t\ttype Foo\n\t\t\t" [] [] = true := by decide +kernel

/-- no rule: one directive -/
example : sdlCase b!"\n\t\t\t\tdirective @foo on SCHEMA\n\t\t\t" [] [] = true := by decide +kernel

/-- no rule: many directives -/
example : sdlCase b!"\n\t\t\t\tdirective @foo on SCHEMA\n\t\t\t\tdirective @bar on SCHEMA\n\t\t\t\tdirective @baz on SCHEMA\n\t\t\t" [] [] = true := by decide +kernel

/-- no rule: directive and non-directive definitions named the same -/
example : sdlCase b!"\n\t\t\t\tquery foo { __typename }\n\t\t\t\tfragment foo on foo { __typename }\n\t\t\t\ttype foo\n\n\t\t\t\tdirective @foo on SCHEMA\n\t\t\t" [] [] = true := by decide +kernel

/-- no rule: directives named the same -/
example : sdlCase b!"\n\t\t\t\tdirective @foo on SCHEMA\n\t\t\t\tdirective @foo on SCHEMA\n\t\t\t" [] [b!"There can be only one directive named \"foo\"."] = true := by decide +kernel

/-- no rule: adding new directive to existing schema -/
example : sdlExtCase b!"\n\t\t\t\tdirective @foo on SCHEMA\n\t\t\t" b!"\n\t\t\t\tdirective @bar on SCHEMA\n\t\t\t" [] [] = true := by decide +kernel

/-- no rule: adding new directive with standard name to existing schema -/
example : sdlExtCase b!"\n\t\t\t\ttype foo\n\t\t\t" b!"\n\t\t\t\tdirective @skip on SCHEMA\n\t\t\t" [] [b!"Directive \"skip\" already exists in the schema. It cannot be redefined."] = true := by decide +kernel

/-- no rule: adding new directive to existing schema with same-named type -/
example : sdlExtCase b!"\n\t\t\t\ttype foo\n\t\t\t" b!"\n\t\t\t\tdirective @foo on SCHEMA\n\t\t\t" [] [] = true := by decide +kernel

/-- no rule: adding conflicting directives to existing schema -/
example : sdlExtCase b!"\n\t\t\t\tdirective @foo on SCHEMA\n\t\t\t" b!"\n\t\t\t\tdirective @foo on SCHEMA\n\t\t\t" [] [b!"Directive \"foo\" already exists in the schema. It cannot be redefined."] = true := by decide +kernel

/-! ### validation/rules/rule_unique_directives_per_location_test.go -/

/-! `UniqueDirectivesPerLocation`: duplicate directives in many locations (no example) -/

/-! ### validation/rules/rule_unique_input_field_names_test.go -/

/-- `UniqueInputFieldNames`: input object with fields -/
example : sdlCase b!"\n\t\t\t\t\ttype SomeType {\n\t\t\t\t\t\tfield: String @foo(arg: { f: true })\n\t\t\t\t\t}\n\t\t\t\t" [.uniqueInputFieldNames] [] = true := by decide +kernel

/-- `UniqueInputFieldNames`: same input object within two args -/
example : sdlCase b!"\n\t\t\t\t\ttype SomeType {\n\t\t\t\t\t\tfield: String @foo(arg1: { f: true }, arg2: { f: true })\n\t\t\t\t\t}\n\t\t\t\t" [.uniqueInputFieldNames] [] = true := by decide +kernel

/-- `UniqueInputFieldNames`: multiple input object fields -/
example : sdlCase b!"\n\t\t\t\t\ttype SomeType {\n\t\t\t\t\t\tfield: String @foo(arg: { f1: \"value\", f2: \"value\", f3: \"value\" })\n\t\t\t\t\t}\n\t\t\t\t" [.uniqueInputFieldNames] [] = true := by decide +kernel

/-- `UniqueInputFieldNames`: allows for nested input objects with similar fields -/
example : sdlCase b!"\n\t\t\t\t\ttype SomeType {\n\t\t\t\t\t\tfield: String @foo(arg: {\n\t\t\t\t\t\t\tdeep: {\n\t\t\t\t\t\t\t\tdeep: {\n\t\t\t\t\t\t\t\t\tid: 1\n\t\t\t\t\t\t\t\t}\n\t\t\t\t\t\t\t\tid: 1\n\t\t\t\t\t\t\t}\n\t\t\t\t\t\t\tid: 1\n\t\t\t\t\t\t})\n\t\t\t\t\t}\n\t\t\t\t" [.uniqueInputFieldNames] [] = true := by decide +kernel

/-- `UniqueInputFieldNames`: duplicate input object fields -/
example : sdlCase b!"\n\t\t\t\t\ttype SomeType {\n\t\t\t\t\t\tfield: String @foo(arg: { f1: \"value\", f1: \"value\" })\n\t\t\t\t\t}\n\t\t\t\t" [.uniqueInputFieldNames] [b!"There can be only one input field named \"f1\"."] = true := by decide +kernel

/-- `UniqueInputFieldNames`: many duplicate input object fields -/
example : sdlCase b!"\n\t\t\t\t\ttype SomeType {\n\t\t\t\t\t\tfield: String @foo(arg: { f1: \"value\", f1: \"value\", f1: \"value\" })\n\t\t\t\t\t}\n\t\t\t\t" [.uniqueInputFieldNames] [b!"There can be only one input field named \"f1\".", b!"There can be only one input field named \"f1\"."] = true := by decide +kernel

/-- `UniqueInputFieldNames`: nested duplicate input object fields -/
example : sdlCase b!"\n\t\t\t\t\ttype SomeType {\n\t\t\t\t\t\tfield: String @foo(arg: { f1: { f2: \"value\", f2: \"value\" } })\n\t\t\t\t\t}\n\t\t\t\t" [.uniqueInputFieldNames] [b!"There can be only one input field named \"f2\"."] = true := by decide +kernel

/-! ### validation/rules/rule_unique_operation_types_test.go -/

/-- `UniqueOperationTypes`: no schema definition -/
example : sdlCase b!"\n\t\t\t\ttype Foo\n\t\t\t" [.uniqueOperationTypes] [] = true := by decide +kernel

/-- `UniqueOperationTypes`: schema definition with all types -/
example : sdlCase b!"\n\t\t\t\ttype Foo\n\n\t\t\t\tschema {\n\t\t\t\t\tquery: Query\n\t\t\t\t\tmutation: Mutation\n\t\t\t\t\tsubscription: Subscription\n\t\t\t\t}\n\t\t\t" [.uniqueOperationTypes] [] = true := by decide +kernel

/-- `UniqueOperationTypes`: schema definition with single extension -/
example : sdlCase b!"\n\t\t\t\ttype Foo\n\n\t\t\t\tschema {\n\t\t\t\t\tquery: Query\n\t\t\t\t}\n\n\t\t\t\textend schema {\n\t\t\t\t\tmutation: Mutation\n\t\t\t\t\tsubscription: Subscription\n\t\t\t\t}\n\t\t\t" [.uniqueOperationTypes] [] = true := by decide +kernel

/-- `UniqueOperationTypes`: schema definition with separate extensions -/
example : sdlCase b!"\n\t\t\t\ttype Foo\n\n\t\t\t\tschema {\n\t\t\t\t\tquery: Query\n\t\t\t\t}\n\n\t\t\t\textend schema {\n\t\t\t\t\tmutation: Mutation\n\t\t\t\t}\n\n\t\t\t\textend schema {\n\t\t\t\t\tsubscription: Subscription\n\t\t\t\t}\n\t\t\t" [.uniqueOperationTypes] [] = true := by decide +kernel

/-- `UniqueOperationTypes`: extend schema before definition -/
example : sdlCase b!"\n\t\t\t\ttype Foo\n\n\t\t\t\textend schema {\n\t\t\t\t\tmutation: Mutation\n\t\t\t\t}\n\n\t\t\t\textend schema {\n\t\t\t\t\tsubscription: Subscription\n\t\t\t\t}\n\n\t\t\t\tschema {\n\t\t\t\t\tquery: Query\n\t\t\t\t}\n\t\t\t" [.uniqueOperationTypes] [] = true := by decide +kernel

/-- `UniqueOperationTypes`: duplicate operation types inside single schema definition -/
example : sdlCase b!"\n\t\t\t\ttype Foo\n\n\t\t\t\tschema {\n\t\t\t\t\tquery: Query\n\t\t\t\t\tmutation: Mutation\n\t\t\t\t\tsubscription: Subscription\n\n\t\t\t\t\tquery: Query\n\t\t\t\t\tmutation: Mutation\n\t\t\t\t\tsubscription: Subscription\n\t\t\t\t}\n\t\t\t" [.uniqueOperationTypes] [b!"There can be only one query type in schema.", b!"There can be only one mutation type in schema.", b!"There can be only one subscription type in schema."] = true := by decide +kernel

/-- `UniqueOperationTypes`: duplicate operation types inside schema extension -/
example : sdlCase b!"\n\t\t\t\ttype Foo\n\n\t\t\t\tschema {\n\t\t\t\t\tquery: Query\n\t\t\t\t\tmutation: Mutation\n\t\t\t\t\tsubscription: Subscription\n\t\t\t\t}\n\n\t\t\t\textend schema {\n\t\t\t\t\tquery: Query\n\t\t\t\t\tmutation: Mutation\n\t\t\t\t\tsubscription: Subscription\n\t\t\t\t}\n\t\t\t" [.uniqueOperationTypes] [b!"There can be only one query type in schema.", b!"There can be only one mutation type in schema.", b!"There can be only one subscription type in schema."] = true := by decide +kernel

/-- `UniqueOperationTypes`: duplicate operation types inside schema extension twice -/
example : sdlCase b!"\n\t\t\t\ttype Foo\n\n\t\t\t\tschema {\n\t\t\t\t\tquery: Query\n\t\t\t\t\tmutation: Mutation\n\t\t\t\t\tsubscription: Subscription\n\t\t\t\t}\n\n\t\t\t\textend schema {\n\t\t\t\t\tquery: Query\n\t\t\t\t\tmutation: Mutation\n\t\t\t\t\tsubscription: Subscription\n\t\t\t\t}\n\n\t\t\t\textend schema {\n\t\t\t\t\tquery: Query\n\t\t\t\t\tmutation: Mutation\n\t\t\t\t\tsubscription: Subscription\n\t\t\t\t}\n\t\t\t" [.uniqueOperationTypes] [b!"There can be only one query type in schema.", b!"There can be only one mutation type in schema.", b!"There can be only one subscription type in schema.", b!"There can be only one query type in schema.", b!"There can be only one mutation type in schema.", b!"There can be only one subscription type in schema."] = true := by decide +kernel

/-- `UniqueOperationTypes`: duplicate operation types inside second schema extension -/
example : sdlCase b!"\n\t\t\t\ttype Foo\n\n\t\t\t\tschema {\n\t\t\t\t\tquery: Query\n\t\t\t\t}\n\n\t\t\t\textend schema {\n\t\t\t\t\tmutation: Mutation\n\t\t\t\t\tsubscription: Subscription\n\t\t\t\t}\n\n\t\t\t\textend schema {\n\t\t\t\t\tquery: Query\n\t\t\t\t\tmutation: Mutation\n\t\t\t\t\tsubscription: Subscription\n\t\t\t\t}\n\t\t\t" [.uniqueOperationTypes] [b!"There can be only one query type in schema.", b!"There can be only one mutation type in schema.", b!"There can be only one subscription type in schema."] = true := by decide +kernel

/-- `UniqueOperationTypes`: adding new operation types to existing schema -/
example : sdlEmptyCase b!"\n\t\t\t\textend schema {\n\t\t\t\t\tmutation: Mutation\n\t\t\t\t}\n\n\t\t\t\textend schema {\n\t\t\t\t\tsubscription: Subscription\n\t\t\t\t}\n\t\t\t" [.uniqueOperationTypes] [] = true := by decide +kernel

/-- `UniqueOperationTypes`: adding conflicting operation types to existing schema -/
example : sdlExtCase b!"\n\t\t\t\tschema {\n\t\t\t\t\tquery: Query\n\t\t\t\t\tmutation: Mutation\n\t\t\t\t\tsubscription: Subscription\n\t\t\t\t}\n\n\t\t\t\ttype Query\n\t\t\t\ttype Mutation\n\t\t\t\ttype Subscription\n\t\t\t" b!"\n\t\t\t\textend schema {\n\t\t\t\t\tquery: Foo\n\t\t\t\t\tmutation: Foo\n\t\t\t\t\tsubscription: Foo\n\t\t\t\t}\n\t\t\t" [.uniqueOperationTypes] [b!"Type for query already defined in the schema. It cannot be redefined.", b!"Type for mutation already defined in the schema. It cannot be redefined.", b!"Type for subscription already defined in the schema. It cannot be redefined."] = true := by decide +kernel

/-- `UniqueOperationTypes`: adding conflicting operation types to existing schema twice -/
example : sdlExtCase b!"\n\t\t\t\tschema {\n\t\t\t\t\tquery: Query\n\t\t\t\t\tmutation: Mutation\n\t\t\t\t\tsubscription: Subscription\n\t\t\t\t}\n\n\t\t\t\ttype Query\n\t\t\t\ttype Mutation\n\t\t\t\ttype Subscription\n\t\t\t" b!"\n\t\t\t\textend schema {\n\t\t\t\t\tquery: Foo\n\t\t\t\t\tmutation: Foo\n\t\t\t\t\tsubscription: Foo\n\t\t\t\t}\n\n\t\t\t\textend schema {\n\t\t\t\t\tquery: Foo\n\t\t\t\t\tmutation: Foo\n\t\t\t\t\tsubscription: Foo\n\t\t\t\t}\n\t\t\t" [.uniqueOperationTypes] [b!"Type for query already defined in the schema. It cannot be redefined.", b!"Type for mutation already defined in the schema. It cannot be redefined.", b!"Type for subscription already defined in the schema. It cannot be redefined.", b!"Type for query already defined in the schema. It cannot be redefined.", b!"Type for mutation already defined in the schema. It cannot be redefined.", b!"Type for subscription already defined in the schema. It cannot be redefined."] = true := by decide +kernel

/-! ### validation/rules/rule_unique_type_names_test.go -/

/-- no rule: no types -/
example : sdlCase b!"\n\t\t\t\tdirective @test on SCHEMA\n\t\t\t" [] [] = true := by decide +kernel

/-- no rule: one type -/
example : sdlCase b!"\n\t\t\t\ttype Foo\n\t\t\t" [] [] = true := by decide +kernel

/-- no rule: many types -/
example : sdlCase b!"\n\t\t\t\ttype Foo\n\t\t\t\ttype Bar\n\t\t\t\ttype Baz\n\t\t\t" [] [] = true := by decide +kernel

/-- no rule: type and non-type definitions named the same -/
example : sdlCase b!"\n\t\t\t\tquery Foo { __typename }\n\t\t\t\tfragment Foo on Query { __typename }\n\t\t\t\tdirective @Foo on SCHEMA\n\n\t\t\t\ttype Foo\n\t\t\t" [] [] = true := by decide +kernel

/-- no rule: types named the same -/
example : sdlCase b!"\n\t\t\t\ttype Foo\n\n\t\t\t\tscalar Foo\n\t\t\t\ttype Foo\n\t\t\t\tinterface Foo\n\t\t\t\tunion Foo\n\t\t\t\tenum Foo\n\t\t\t\tinput Foo\n\t\t\t" [] [b!"There can be only one type named Foo.", b!"There can be only one type named Foo.", b!"There can be only one type named Foo.", b!"There can be only one type named Foo.", b!"There can be only one type named Foo.", b!"There can be only one type named Foo."] = true := by decide +kernel

/-- no rule: adding new types to existing schema -/
example : sdlExtCase b!"\n\t\t\t\ttype Foo\n\t\t\t" b!"\n\t\t\t\ttype Bar\n\t\t\t" [] [] = true := by decide +kernel

/-- no rule: adding new type to existing schema with same-named directive -/
example : sdlExtCase b!"\n\t\t\t\tdirective @Foo on SCHEMA\n\t\t\t" b!"\n\t\t\t\ttype Foo\n\t\t\t" [] [] = true := by decide +kernel

/-- no rule: adding conflicting types to existing schema -/
example : sdlExtCase b!"\n\t\t\t\ttype Foo\n\t\t\t" b!"\n\t\t\t\tscalar Foo\n\t\t\t\ttype Foo\n\t\t\t\tinterface Foo\n\t\t\t\tunion Foo\n\t\t\t\tenum Foo\n\t\t\t\tinput Foo\n\t\t\t" [] [b!"Type Foo already exists in the schema. It cannot also be defined in this type definition.", b!"Type Foo already exists in the schema. It cannot also be defined in this type definition.", b!"Type Foo already exists in the schema. It cannot also be defined in this type definition.", b!"Type Foo already exists in the schema. It cannot also be defined in this type definition.", b!"Type Foo already exists in the schema. It cannot also be defined in this type definition.", b!"Type Foo already exists in the schema. It cannot also be defined in this type definition."] = true := by decide +kernel

end GQL.Conformance

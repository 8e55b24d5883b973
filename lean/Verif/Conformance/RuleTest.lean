import Verif.Model.Api

/-!
# The model against the repository's own tests of the validation rules

These are tests of the model's fidelity, not proofs of properties. Each `example` is one case of a test table in
validation/rules/*_test.go; the document, the schema, the rule and the expected errors are those of the table, and the way the rule is run is
that of `queryRuleTester` and `sdlRuleTester` (validation/rules/rules_test.go:171-214, export_test.go:12-45). The testers sort both lists of
errors, so that the order does not matter here either; the errors have no locations and no path. The expected messages were put together from the
text of validation/errors.go. This file is generated from the Go files.

Three cases of `UniqueOperationNames` are stated with the result of the code as it is, which is no error at all: the map the rule looks at is not
filled when a query document is validated (validation/context.go:21-34), so that the repository's own test of that rule cannot pass at this
commit. The rule is not enabled.

14 cases of `KnownDirectives`, `KnownTypeNames`, `PossibleTypeExtensions` and `UniqueDirectivesPerLocation` need the schema of a long document and take the kernel too long. They
are listed without an `example`; the model agrees with them too when it is evaluated.
-/
namespace GQL.Conformance

open GQL

/-- No document of the tables contains a float value. -/
def noFloats : Bytes → Option Nat := fun _ => none

/-- The orders in which the maps are ranged over. -/
def anyOrder : BuildOrders := ⟨Order.id, Order.id, Order.id⟩

/-- `buildSchema` of the tests (validation/rules/export_test.go:27-45); `none` if anything goes wrong. -/
def schemaOf (text : Bytes) : Option Schema :=
  match parse noFloats text with
  | .ok d =>
    match validateSDL d none (rulesWalker specifiedSDL) with
    | .ret c =>
      if c.errors.isEmpty then
        match buildSchema anyOrder c with
        | .ret c => some c.schema
        | _ => none
      else none
    | _ => none
  | _ => none

/-- The messages of the errors are the given ones, in any order. -/
def reports (r : Out Ctx) (messages : List Bytes) : Bool :=
  match r with
  | .ret c => c.errors.all (fun e => e.locations.isEmpty && e.path.isEmpty) && (c.errors.map (·.message)).isPerm messages
  | _ => false

/-- `queryRuleTester` (validation/rules/rules_test.go:171-193) on one case. -/
def queryCase (schema query : Bytes) (rules : List Rule) (messages : List Bytes) : Bool :=
  match parse noFloats query with
  | .ok d => reports (validate d (schemaOf schema) (rulesWalker rules)) messages
  | _ => false

/-- `sdlRuleTester` (validation/rules/rules_test.go:196-214) on one case without a schema. -/
def sdlCase (query : Bytes) (rules : List Rule) (messages : List Bytes) : Bool :=
  match parse noFloats query with
  | .ok d => reports (validateSDL d none (rulesWalker rules)) messages
  | _ => false

/-- `sdlRuleTester` on one case whose schema is `&graphql.Schema{}`. -/
def sdlEmptyCase (query : Bytes) (rules : List Rule) (messages : List Bytes) : Bool :=
  match parse noFloats query with
  | .ok d => reports (validateSDL d (some {}) (rulesWalker rules)) messages
  | _ => false

/-- `sdlRuleTester` on one case with a schema. -/
def sdlExtCase (schema query : Bytes) (rules : List Rule) (messages : List Bytes) : Bool :=
  match parse noFloats query with
  | .ok d => reports (validateSDL d (schemaOf schema) (rulesWalker rules)) messages
  | _ => false

/-- `schemaDocument` (validation/rules/rules_test.go:13-139), byte by byte. -/
def schemaDocument : Bytes :=
  [10, 9, 9, 105, 110, 116, 101, 114, 102, 97, 99, 101, 32, 66, 101, 105, 110, 103, 32, 123, 10, 9, 9, 9, 110, 97, 109, 101, 40, 115, 117,
   114, 110, 97, 109, 101, 58, 32, 66, 111, 111, 108, 101, 97, 110, 41, 58, 32, 83, 116, 114, 105, 110, 103, 10, 9, 9, 125, 10, 9, 9, 10, 9,
   9, 105, 110, 116, 101, 114, 102, 97, 99, 101, 32, 80, 101, 116, 32, 123, 10, 9, 9, 9, 110, 97, 109, 101, 40, 115, 117, 114, 110, 97, 109,
   101, 58, 32, 66, 111, 111, 108, 101, 97, 110, 41, 58, 32, 83, 116, 114, 105, 110, 103, 10, 9, 9, 125, 10, 9, 9, 10, 9, 9, 105, 110, 116,
   101, 114, 102, 97, 99, 101, 32, 67, 97, 110, 105, 110, 101, 32, 123, 10, 9, 9, 9, 110, 97, 109, 101, 40, 115, 117, 114, 110, 97, 109,
   101, 58, 32, 66, 111, 111, 108, 101, 97, 110, 41, 58, 32, 83, 116, 114, 105, 110, 103, 10, 9, 9, 125, 10, 9, 9, 10, 9, 9, 101, 110, 117,
   109, 32, 68, 111, 103, 67, 111, 109, 109, 97, 110, 100, 32, 123, 10, 9, 9, 9, 83, 73, 84, 10, 9, 9, 9, 72, 69, 69, 76, 10, 9, 9, 9, 68,
   79, 87, 78, 10, 9, 9, 125, 10, 9, 9, 10, 9, 9, 116, 121, 112, 101, 32, 68, 111, 103, 32, 105, 109, 112, 108, 101, 109, 101, 110, 116,
   115, 32, 66, 101, 105, 110, 103, 32, 38, 32, 80, 101, 116, 32, 38, 32, 67, 97, 110, 105, 110, 101, 32, 123, 10, 9, 9, 9, 110, 97, 109,
   101, 40, 115, 117, 114, 110, 97, 109, 101, 58, 32, 66, 111, 111, 108, 101, 97, 110, 41, 58, 32, 83, 116, 114, 105, 110, 103, 10, 9, 9, 9,
   110, 105, 99, 107, 110, 97, 109, 101, 58, 32, 83, 116, 114, 105, 110, 103, 10, 9, 9, 9, 98, 97, 114, 107, 86, 111, 108, 117, 109, 101,
   58, 32, 73, 110, 116, 10, 9, 9, 9, 98, 97, 114, 107, 115, 58, 32, 66, 111, 111, 108, 101, 97, 110, 10, 9, 9, 9, 100, 111, 101, 115, 75,
   110, 111, 119, 110, 67, 111, 109, 109, 97, 110, 100, 40, 100, 111, 103, 67, 111, 109, 109, 97, 110, 100, 58, 32, 68, 111, 103, 67, 111,
   109, 109, 97, 110, 100, 41, 58, 32, 66, 111, 111, 108, 101, 97, 110, 10, 9, 9, 9, 105, 115, 72, 111, 117, 115, 101, 116, 114, 97, 105,
   110, 101, 100, 40, 97, 116, 79, 116, 104, 101, 114, 72, 111, 109, 101, 115, 58, 32, 66, 111, 111, 108, 101, 97, 110, 32, 61, 32, 116,
   114, 117, 101, 41, 58, 32, 66, 111, 111, 108, 101, 97, 110, 10, 9, 9, 9, 105, 115, 65, 116, 76, 111, 99, 97, 116, 105, 111, 110, 40, 120,
   58, 32, 73, 110, 116, 44, 32, 121, 58, 32, 73, 110, 116, 41, 58, 32, 66, 111, 111, 108, 101, 97, 110, 10, 9, 9, 125, 10, 9, 9, 10, 9, 9,
   116, 121, 112, 101, 32, 67, 97, 116, 32, 105, 109, 112, 108, 101, 109, 101, 110, 116, 115, 32, 66, 101, 105, 110, 103, 32, 38, 32, 80,
   101, 116, 32, 123, 10, 9, 9, 9, 110, 97, 109, 101, 40, 115, 117, 114, 110, 97, 109, 101, 58, 32, 66, 111, 111, 108, 101, 97, 110, 41, 58,
   32, 83, 116, 114, 105, 110, 103, 10, 9, 9, 9, 110, 105, 99, 107, 110, 97, 109, 101, 58, 32, 83, 116, 114, 105, 110, 103, 10, 9, 9, 9,
   109, 101, 111, 119, 115, 58, 32, 66, 111, 111, 108, 101, 97, 110, 10, 9, 9, 9, 109, 101, 111, 119, 86, 111, 108, 117, 109, 101, 58, 32,
   73, 110, 116, 10, 9, 9, 9, 102, 117, 114, 67, 111, 108, 111, 114, 58, 32, 70, 117, 114, 67, 111, 108, 111, 114, 10, 9, 9, 125, 10, 9, 9,
   10, 9, 9, 117, 110, 105, 111, 110, 32, 67, 97, 116, 79, 114, 68, 111, 103, 32, 61, 32, 68, 111, 103, 32, 124, 32, 67, 97, 116, 10, 9, 9,
   10, 9, 9, 105, 110, 116, 101, 114, 102, 97, 99, 101, 32, 73, 110, 116, 101, 108, 108, 105, 103, 101, 110, 116, 32, 123, 10, 9, 9, 9, 105,
   113, 58, 32, 73, 110, 116, 10, 9, 9, 125, 10, 9, 9, 10, 9, 9, 116, 121, 112, 101, 32, 72, 117, 109, 97, 110, 32, 105, 109, 112, 108, 101,
   109, 101, 110, 116, 115, 32, 66, 101, 105, 110, 103, 32, 38, 32, 73, 110, 116, 101, 108, 108, 105, 103, 101, 110, 116, 32, 123, 10, 9, 9,
   9, 110, 97, 109, 101, 40, 115, 117, 114, 110, 97, 109, 101, 58, 32, 66, 111, 111, 108, 101, 97, 110, 41, 58, 32, 83, 116, 114, 105, 110,
   103, 10, 9, 9, 9, 112, 101, 116, 115, 58, 32, 91, 80, 101, 116, 93, 10, 9, 9, 9, 114, 101, 108, 97, 116, 105, 118, 101, 115, 58, 32, 91,
   72, 117, 109, 97, 110, 93, 10, 9, 9, 9, 105, 113, 58, 32, 73, 110, 116, 10, 9, 9, 125, 10, 9, 9, 10, 9, 9, 116, 121, 112, 101, 32, 65,
   108, 105, 101, 110, 32, 105, 109, 112, 108, 101, 109, 101, 110, 116, 115, 32, 66, 101, 105, 110, 103, 32, 38, 32, 73, 110, 116, 101, 108,
   108, 105, 103, 101, 110, 116, 32, 123, 10, 9, 9, 9, 105, 113, 58, 32, 73, 110, 116, 10, 9, 9, 9, 110, 97, 109, 101, 40, 115, 117, 114,
   110, 97, 109, 101, 58, 32, 66, 111, 111, 108, 101, 97, 110, 41, 58, 32, 83, 116, 114, 105, 110, 103, 10, 9, 9, 9, 110, 117, 109, 69, 121,
   101, 115, 58, 32, 73, 110, 116, 10, 9, 9, 125, 10, 9, 9, 10, 9, 9, 117, 110, 105, 111, 110, 32, 68, 111, 103, 79, 114, 72, 117, 109, 97,
   110, 32, 61, 32, 68, 111, 103, 32, 124, 32, 72, 117, 109, 97, 110, 10, 9, 9, 10, 9, 9, 117, 110, 105, 111, 110, 32, 72, 117, 109, 97,
   110, 79, 114, 65, 108, 105, 101, 110, 32, 61, 32, 72, 117, 109, 97, 110, 32, 124, 32, 65, 108, 105, 101, 110, 10, 9, 9, 10, 9, 9, 101,
   110, 117, 109, 32, 70, 117, 114, 67, 111, 108, 111, 114, 32, 123, 10, 9, 9, 9, 66, 82, 79, 87, 78, 10, 9, 9, 9, 66, 76, 65, 67, 75, 10,
   9, 9, 9, 84, 65, 78, 10, 9, 9, 9, 83, 80, 79, 84, 84, 69, 68, 10, 9, 9, 9, 78, 79, 95, 70, 85, 82, 10, 9, 9, 9, 85, 78, 75, 78, 79, 87,
   78, 10, 9, 9, 125, 10, 9, 9, 10, 9, 9, 105, 110, 112, 117, 116, 32, 67, 111, 109, 112, 108, 101, 120, 73, 110, 112, 117, 116, 32, 123,
   10, 9, 9, 9, 114, 101, 113, 117, 105, 114, 101, 100, 70, 105, 101, 108, 100, 58, 32, 66, 111, 111, 108, 101, 97, 110, 33, 10, 9, 9, 9,
   110, 111, 110, 78, 117, 108, 108, 70, 105, 101, 108, 100, 58, 32, 66, 111, 111, 108, 101, 97, 110, 33, 32, 61, 32, 102, 97, 108, 115,
   101, 10, 9, 9, 9, 105, 110, 116, 70, 105, 101, 108, 100, 58, 32, 73, 110, 116, 10, 9, 9, 9, 115, 116, 114, 105, 110, 103, 70, 105, 101,
   108, 100, 58, 32, 83, 116, 114, 105, 110, 103, 10, 9, 9, 9, 98, 111, 111, 108, 101, 97, 110, 70, 105, 101, 108, 100, 58, 32, 66, 111,
   111, 108, 101, 97, 110, 10, 9, 9, 9, 115, 116, 114, 105, 110, 103, 76, 105, 115, 116, 70, 105, 101, 108, 100, 58, 32, 91, 83, 116, 114,
   105, 110, 103, 93, 10, 9, 9, 125, 10, 9, 9, 10, 9, 9, 116, 121, 112, 101, 32, 67, 111, 109, 112, 108, 105, 99, 97, 116, 101, 100, 65,
   114, 103, 115, 32, 123, 10, 9, 9, 9, 105, 110, 116, 65, 114, 103, 70, 105, 101, 108, 100, 40, 105, 110, 116, 65, 114, 103, 58, 32, 73,
   110, 116, 41, 58, 32, 83, 116, 114, 105, 110, 103, 10, 9, 9, 9, 110, 111, 110, 78, 117, 108, 108, 73, 110, 116, 65, 114, 103, 70, 105,
   101, 108, 100, 40, 110, 111, 110, 78, 117, 108, 108, 73, 110, 116, 65, 114, 103, 58, 32, 73, 110, 116, 33, 41, 58, 32, 83, 116, 114, 105,
   110, 103, 10, 9, 9, 9, 115, 116, 114, 105, 110, 103, 65, 114, 103, 70, 105, 101, 108, 100, 40, 115, 116, 114, 105, 110, 103, 65, 114,
   103, 58, 32, 83, 116, 114, 105, 110, 103, 41, 58, 32, 83, 116, 114, 105, 110, 103, 10, 9, 9, 9, 98, 111, 111, 108, 101, 97, 110, 65, 114,
   103, 70, 105, 101, 108, 100, 40, 98, 111, 111, 108, 101, 97, 110, 65, 114, 103, 58, 32, 66, 111, 111, 108, 101, 97, 110, 41, 58, 32, 83,
   116, 114, 105, 110, 103, 10, 9, 9, 9, 101, 110, 117, 109, 65, 114, 103, 70, 105, 101, 108, 100, 40, 101, 110, 117, 109, 65, 114, 103, 58,
   32, 70, 117, 114, 67, 111, 108, 111, 114, 41, 58, 32, 83, 116, 114, 105, 110, 103, 10, 9, 9, 9, 102, 108, 111, 97, 116, 65, 114, 103, 70,
   105, 101, 108, 100, 40, 102, 108, 111, 97, 116, 65, 114, 103, 58, 32, 70, 108, 111, 97, 116, 41, 58, 32, 83, 116, 114, 105, 110, 103, 10,
   9, 9, 9, 105, 100, 65, 114, 103, 70, 105, 101, 108, 100, 40, 105, 100, 65, 114, 103, 58, 32, 73, 68, 41, 58, 32, 83, 116, 114, 105, 110,
   103, 10, 9, 9, 9, 115, 116, 114, 105, 110, 103, 76, 105, 115, 116, 65, 114, 103, 70, 105, 101, 108, 100, 40, 115, 116, 114, 105, 110,
   103, 76, 105, 115, 116, 65, 114, 103, 58, 32, 91, 83, 116, 114, 105, 110, 103, 93, 41, 58, 32, 83, 116, 114, 105, 110, 103, 10, 9, 9, 9,
   115, 116, 114, 105, 110, 103, 76, 105, 115, 116, 78, 111, 110, 78, 117, 108, 108, 65, 114, 103, 70, 105, 101, 108, 100, 40, 115, 116,
   114, 105, 110, 103, 76, 105, 115, 116, 78, 111, 110, 78, 117, 108, 108, 65, 114, 103, 58, 32, 91, 83, 116, 114, 105, 110, 103, 33, 93,
   41, 58, 32, 83, 116, 114, 105, 110, 103, 10, 9, 9, 9, 99, 111, 109, 112, 108, 101, 120, 65, 114, 103, 70, 105, 101, 108, 100, 40, 99,
   111, 109, 112, 108, 101, 120, 65, 114, 103, 58, 32, 67, 111, 109, 112, 108, 101, 120, 73, 110, 112, 117, 116, 41, 58, 32, 83, 116, 114,
   105, 110, 103, 10, 9, 9, 9, 109, 117, 108, 116, 105, 112, 108, 101, 82, 101, 113, 115, 40, 114, 101, 113, 49, 58, 32, 73, 110, 116, 33,
   44, 32, 114, 101, 113, 50, 58, 32, 73, 110, 116, 33, 41, 58, 32, 83, 116, 114, 105, 110, 103, 10, 9, 9, 9, 110, 111, 110, 78, 117, 108,
   108, 70, 105, 101, 108, 100, 87, 105, 116, 104, 68, 101, 102, 97, 117, 108, 116, 40, 97, 114, 103, 58, 32, 73, 110, 116, 33, 32, 61, 32,
   48, 41, 58, 32, 83, 116, 114, 105, 110, 103, 10, 9, 9, 9, 109, 117, 108, 116, 105, 112, 108, 101, 79, 112, 116, 115, 40, 111, 112, 116,
   49, 58, 32, 73, 110, 116, 32, 61, 32, 48, 44, 32, 111, 112, 116, 50, 58, 32, 73, 110, 116, 32, 61, 32, 48, 41, 58, 32, 83, 116, 114, 105,
   110, 103, 10, 9, 9, 9, 109, 117, 108, 116, 105, 112, 108, 101, 79, 112, 116, 65, 110, 100, 82, 101, 113, 40, 114, 101, 113, 49, 58, 32,
   73, 110, 116, 33, 44, 32, 114, 101, 113, 50, 58, 32, 73, 110, 116, 33, 44, 32, 111, 112, 116, 49, 58, 32, 73, 110, 116, 32, 61, 32, 48,
   44, 32, 111, 112, 116, 50, 58, 32, 73, 110, 116, 32, 61, 32, 48, 41, 58, 32, 83, 116, 114, 105, 110, 103, 10, 9, 9, 125, 10, 9, 9, 10, 9,
   9, 115, 99, 97, 108, 97, 114, 32, 73, 110, 118, 97, 108, 105, 100, 10, 9, 9, 10, 9, 9, 115, 99, 97, 108, 97, 114, 32, 65, 110, 121, 10,
   9, 9, 10, 9, 9, 116, 121, 112, 101, 32, 81, 117, 101, 114, 121, 82, 111, 111, 116, 32, 123, 10, 9, 9, 9, 104, 117, 109, 97, 110, 40, 105,
   100, 58, 32, 73, 68, 41, 58, 32, 72, 117, 109, 97, 110, 10, 9, 9, 9, 97, 108, 105, 101, 110, 58, 32, 65, 108, 105, 101, 110, 10, 9, 9, 9,
   100, 111, 103, 58, 32, 68, 111, 103, 10, 9, 9, 9, 99, 97, 116, 58, 32, 67, 97, 116, 10, 9, 9, 9, 112, 101, 116, 58, 32, 80, 101, 116, 10,
   9, 9, 9, 99, 97, 116, 79, 114, 68, 111, 103, 58, 32, 67, 97, 116, 79, 114, 68, 111, 103, 10, 9, 9, 9, 100, 111, 103, 79, 114, 72, 117,
   109, 97, 110, 58, 32, 68, 111, 103, 79, 114, 72, 117, 109, 97, 110, 10, 9, 9, 9, 104, 117, 109, 97, 110, 79, 114, 65, 108, 105, 101, 110,
   58, 32, 72, 117, 109, 97, 110, 79, 114, 65, 108, 105, 101, 110, 10, 9, 9, 9, 99, 111, 109, 112, 108, 105, 99, 97, 116, 101, 100, 65, 114,
   103, 115, 58, 32, 67, 111, 109, 112, 108, 105, 99, 97, 116, 101, 100, 65, 114, 103, 115, 10, 9, 9, 9, 105, 110, 118, 97, 108, 105, 100,
   65, 114, 103, 40, 97, 114, 103, 58, 32, 73, 110, 118, 97, 108, 105, 100, 41, 58, 32, 83, 116, 114, 105, 110, 103, 10, 9, 9, 9, 97, 110,
   121, 65, 114, 103, 40, 97, 114, 103, 58, 32, 65, 110, 121, 41, 58, 32, 83, 116, 114, 105, 110, 103, 10, 9, 9, 125, 10, 9, 9, 10, 9, 9,
   115, 99, 104, 101, 109, 97, 32, 123, 10, 9, 9, 9, 113, 117, 101, 114, 121, 58, 32, 81, 117, 101, 114, 121, 82, 111, 111, 116, 10, 9, 9,
   125, 10, 9, 9, 10, 9, 9, 100, 105, 114, 101, 99, 116, 105, 118, 101, 32, 64, 111, 110, 81, 117, 101, 114, 121, 32, 111, 110, 32, 81, 85,
   69, 82, 89, 10, 9, 9, 100, 105, 114, 101, 99, 116, 105, 118, 101, 32, 64, 111, 110, 77, 117, 116, 97, 116, 105, 111, 110, 32, 111, 110,
   32, 77, 85, 84, 65, 84, 73, 79, 78, 10, 9, 9, 100, 105, 114, 101, 99, 116, 105, 118, 101, 32, 64, 111, 110, 83, 117, 98, 115, 99, 114,
   105, 112, 116, 105, 111, 110, 32, 111, 110, 32, 83, 85, 66, 83, 67, 82, 73, 80, 84, 73, 79, 78, 10, 9, 9, 100, 105, 114, 101, 99, 116,
   105, 118, 101, 32, 64, 111, 110, 70, 105, 101, 108, 100, 32, 111, 110, 32, 70, 73, 69, 76, 68, 10, 9, 9, 100, 105, 114, 101, 99, 116,
   105, 118, 101, 32, 64, 111, 110, 70, 114, 97, 103, 109, 101, 110, 116, 68, 101, 102, 105, 110, 105, 116, 105, 111, 110, 32, 111, 110, 32,
   70, 82, 65, 71, 77, 69, 78, 84, 95, 68, 69, 70, 73, 78, 73, 84, 73, 79, 78, 10, 9, 9, 100, 105, 114, 101, 99, 116, 105, 118, 101, 32, 64,
   111, 110, 70, 114, 97, 103, 109, 101, 110, 116, 83, 112, 114, 101, 97, 100, 32, 111, 110, 32, 70, 82, 65, 71, 77, 69, 78, 84, 95, 83, 80,
   82, 69, 65, 68, 10, 9, 9, 100, 105, 114, 101, 99, 116, 105, 118, 101, 32, 64, 111, 110, 73, 110, 108, 105, 110, 101, 70, 114, 97, 103,
   109, 101, 110, 116, 32, 111, 110, 32, 73, 78, 76, 73, 78, 69, 95, 70, 82, 65, 71, 77, 69, 78, 84, 10, 9, 9, 100, 105, 114, 101, 99, 116,
   105, 118, 101, 32, 64, 111, 110, 86, 97, 114, 105, 97, 98, 108, 101, 68, 101, 102, 105, 110, 105, 116, 105, 111, 110, 32, 111, 110, 32,
   86, 65, 82, 73, 65, 66, 76, 69, 95, 68, 69, 70, 73, 78, 73, 84, 73, 79, 78, 10, 9]

end GQL.Conformance

/-
The built-in directives and types (October 2016/2018 specification, sections 3.2 and 3.13), written out.
-/
import Verif.Model.Context

namespace GQL.Spec

/-- `directive @skip(if: Boolean!) on FIELD | FRAGMENT_SPREAD | INLINE_FRAGMENT`, the same for `@include`, and
`directive @deprecated(reason: String = "No longer supported") on FIELD_DEFINITION | ENUM_VALUE`, with their descriptions. -/
def builtInDirectives : List (Bytes × DirDef) :=
  [(b!"skip",
    { name := b!"skip",
      desc := b!"Directs the executor to skip this field or fragment when the `if` argument is true.",
      args := [⟨b!"Skipped when true.", b!"if", .named b!"Boolean" true, [], none⟩],
      locs := 8 + 32 + 64 }),
   (b!"include",
    { name := b!"include",
      desc := b!"Directs the executor to include this field or fragment only when the `if` argument is true.",
      args := [⟨b!"Included when true.", b!"if", .named b!"Boolean" true, [], none⟩],
      locs := 8 + 32 + 64 }),
   (b!"deprecated",
    { name := b!"deprecated",
      desc := b!"Marks an element of a GraphQL schema as no longer supported.",
      args := [⟨b!"Explains why this element was deprecated, usually also including a suggestion for how to access supported similar data. Formatted using the Markdown syntax (as specified by [CommonMark](https://commonmark.org/).",
        b!"reason", .named b!"String" false, [], some (.str b!"No longer supported")⟩],
      locs := 2048 + 65536 })]

/-- The built-in types that a schema contains: `ID` and `String`. -/
def builtInTypes : List (Bytes × TypeDef) :=
  [(b!"ID", { desc := [], name := b!"ID", kind := .scalar, ifaces := [], dirs := [], fields := [], members := [], values := [], inputs := [] }),
   (b!"String", { desc := [], name := b!"String", kind := .scalar, ifaces := [], dirs := [], fields := [], members := [], values := [], inputs := [] })]

end GQL.Spec

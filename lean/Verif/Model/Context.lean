/-
Model of graphql/schema.go, graphql/builtin.go and validation/context.go.

A Go map with string keys is an association list; a nil map is the empty one (the code only reads nil maps).  An
`*ast.ExecutableDefinition` is the index of its definition in the document (the parser allocates one per definition, and pointers
are only compared and used as map keys); `none` is the nil pointer.
-/
import Verif.Model.Errors
import Verif.Model.Walker

namespace GQL

/-- A Go `map[string]α`. -/
abbrev GMap (α : Type) := List (Bytes × α)

/-- `m[k] = v`. -/
def mapSet {κ α : Type} [BEq κ] : List (κ × α) → κ → α → List (κ × α)
  | [], k, v => [(k, v)]
  | (k', v') :: m, k, v => if k' == k then (k', v) :: m else (k', v') :: mapSet m k v

/-- `Schema` (graphql/schema.go:6-23). -/
structure Schema where
  definition : Option SchemaDef := none
  queryType : Option Ty := none
  mutationType : Option Ty := none
  subscriptionType : Option Ty := none
  directives : GMap DirDef := []
  types : GMap TypeDef := []
  deriving Inhabited

/-- `SkipDirective` (graphql/builtin.go:7-23). -/
def skipDirective : DirDef where
  name := b!"skip"
  desc := b!"Directs the executor to skip this field or fragment when the `if` argument is true."
  locs := DirLoc.field.bit ||| DirLoc.fragmentSpread.bit ||| DirLoc.inlineFragment.bit
  args := [{ name := b!"if", desc := b!"Skipped when true.", type := .named b!"Boolean" true, dirs := [], default := none }]

/-- `IncludeDirective` (graphql/builtin.go:25-41). -/
def includeDirective : DirDef where
  name := b!"include"
  desc := b!"Directs the executor to include this field or fragment only when the `if` argument is true."
  locs := DirLoc.field.bit ||| DirLoc.fragmentSpread.bit ||| DirLoc.inlineFragment.bit
  args := [{ name := b!"if", desc := b!"Included when true.", type := .named b!"Boolean" true, dirs := [], default := none }]

/-- `DeprecatedDirective` (graphql/builtin.go:43-63). -/
def deprecatedDirective : DirDef where
  name := b!"deprecated"
  desc := b!"Marks an element of a GraphQL schema as no longer supported."
  locs := DirLoc.fieldDefinition.bit ||| DirLoc.enumValue.bit
  args := [{ name := b!"reason",
             desc := b!"Explains why this element was deprecated, usually also including a suggestion for how to access supported similar data. Formatted using the Markdown syntax (as specified by [CommonMark](https://commonmark.org/).",
             type := .named b!"String" false, dirs := [], default := some (.str b!"No longer supported") }]

/-- `SpecifiedDirectives` (graphql/builtin.go:85-91). -/
def specifiedDirectives : GMap DirDef :=
  [(b!"skip", skipDirective), (b!"include", includeDirective), (b!"deprecated", deprecatedDirective)]

/-- `IDType` (graphql/builtin.go:67-70). -/
def idType : TypeDef := { name := b!"ID", kind := .scalar }

/-- `StringType` (graphql/builtin.go:74-77). -/
def stringType : TypeDef := { name := b!"String", kind := .scalar }

/-- `SpecifiedTypes` (graphql/builtin.go:94-99). -/
def specifiedTypes : GMap TypeDef := [(b!"ID", idType), (b!"String", stringType)]

/-- `SDLContext` (validation/context.go:210-227).  `KnownEnumValueNames` and `KnownFieldNames` are never used. -/
structure SDLContext where
  directives : GMap DirDef := []
  types : GMap TypeDef := []
  typeExts : GMap (List TypeDef) := []
  schemaDef : Option SchemaDef := none
  schemaExts : List SchemaDef := []
  queryDefined : Bool := false
  mutationDefined : Bool := false
  subscriptionDefined : Bool := false
  isExtending : Bool

/-- `Context` (validation/context.go:60-87).  `errors` has the error added last first, as the linked list has. -/
structure Ctx where
  doc : Document
  errors : List GErr := []
  schema : Schema
  sdl : Option SDLContext := none
  operations : GMap Nat := []
  fragments : GMap FragDef := []
  refs : List (Option Nat × List Nat) := []
  usages : List (Option Nat × List Bytes) := []
  cur : Option Nat := none

/-- `AddError` (validation/context.go:90-92). -/
def Ctx.addError (c : Ctx) (e : GErr) : Ctx := { c with errors := e :: c.errors }

/-- `DirectiveDefinition` (validation/context.go:95-115): the definition and whether it is the schema's; panics without an SDL context. -/
def Ctx.directiveDefinition (c : Ctx) (name : Bytes) : Out (Option DirDef × Bool) :=
  match c.sdl with
  | none => .panic
  | some s =>
    let inSchema := if s.isExtending then c.schema.directives.lookup name else none
    let dirDef := match inSchema with
      | some d => some d
      | none => s.directives.lookup name
    .ret (match dirDef with
      | some d => some d
      | none => specifiedDirectives.lookup name, inSchema.isSome)

/-- `Fragment` (validation/context.go:118-120). -/
def Ctx.fragment (c : Ctx) (name : Bytes) : Option FragDef := c.fragments.lookup name

/-- `TypeDefinition` (validation/context.go:123-139): the definition and whether it is the schema's; panics without an SDL context. -/
def Ctx.typeDefinition (c : Ctx) (name : Bytes) : Out (Option TypeDef × Bool) :=
  match c.sdl with
  | none => .panic
  | some s =>
    match (if s.isExtending then c.schema.types.lookup name else none) with
    | some t => .ret (some t, true)
    | none => .ret (s.types.lookup name, false)

/-- `VariableUsages` (validation/context.go:142-144). -/
def Ctx.variableUsages (c : Ctx) (d : Option Nat) : List Bytes := (c.usages.lookup d).getD []

/-- `ReferencedFragments` (validation/context.go:174-176). -/
def Ctx.referencedFragments (c : Ctx) (d : Option Nat) : List Nat := (c.refs.lookup d).getD []

/-- A Go set (`map[α]struct{}`) with one more key. -/
def setAdd {α : Type} [BEq α] (s : List α) (x : α) : List α := if s.contains x then s else s ++ [x]

/-- `recursiveVariableUsagesIter` (validation/context.go:158-171) with a bound on the depth of the recursion.  `p` is `(agg, seen)`. -/
def Ctx.variableUsagesIter (c : Ctx) : Nat → Option Nat → List Bytes × List (Option Nat) → Out (List Bytes × List (Option Nat))
  | 0, _, _ => .oof
  | fuel + 1, d, p =>
    (c.referencedFragments d).foldl
      (fun acc rd => acc.bind fun q =>
        if q.2.contains (some rd) then .ret q
        else c.variableUsagesIter fuel (some rd) (q.1, setAdd q.2 (some rd)))
      (.ret ((c.variableUsages d).foldl setAdd p.1, p.2))

/-- `RecursiveVariableUsages` (validation/context.go:147-155). -/
def Ctx.recursiveVariableUsages (c : Ctx) (fuel : Nat) (d : Option Nat) : Out (List Bytes) :=
  (c.variableUsagesIter fuel d ([], [])).bind fun p => .ret p.1

/-- `recursivelyReferencedFragmentsIter` (validation/context.go:196-207) with a bound on the depth of the recursion. -/
def Ctx.referencedFragmentsIter (c : Ctx) : Nat → Option Nat → List Nat × List (Option Nat) → Out (List Nat × List (Option Nat))
  | 0, _, _ => .oof
  | fuel + 1, d, p =>
    (c.referencedFragments d).foldl
      (fun acc rd => acc.bind fun q =>
        if q.2.contains (some rd) then .ret (setAdd q.1 rd, q.2)
        else c.referencedFragmentsIter fuel (some rd) (setAdd q.1 rd, setAdd q.2 (some rd)))
      (.ret p)

/-- `RecursivelyReferencedFragments` (validation/context.go:180-191); a nil result is the empty set. -/
def Ctx.recursivelyReferencedFragments (c : Ctx) (fuel : Nat) (d : Option Nat) : Out (List Nat) :=
  if (c.referencedFragments d).length = 0 then .ret []
  else (c.referencedFragmentsIter fuel d ([], [])).bind fun p => .ret p.1

/-- A visit function on contexts; the outcome is a panic once a handler has panicked. -/
abbrev Visit := VisitFunc (Out Ctx)

/-- A handler that runs if nothing has panicked so far. -/
def handler (h : ANode → Ctx → Out Ctx) : ANode → Out Ctx → Out Ctx := fun n o => o.bind (h n)

/-- `setExecutableDefinition` (validation/context.go:230-234). -/
def setExecutableDefinition : Visit := fun w =>
  Walker.addEnter w .executableDefinition <| handler fun n c =>
    match n with
    | .executableDefinition i _ => .ret { c with cur := some i }
    | _ => .ret c

/-- `setFragments` (validation/context.go:237-245). -/
def setFragments : Visit := fun w =>
  Walker.addEnter w .fragmentDefinition <| handler fun n c =>
    match n with
    | .fragmentDefinition f => .ret { c with fragments := mapSet c.fragments f.name f }
    | _ => .ret c

/-- The body of the loop of `setReferencedFragments` (validation/context.go:250-272) for definition number `i`. -/
def refStep (name : Bytes) (c : Ctx) (d : Definition × Nat) : Ctx :=
  match d.1.body with
  | .frag f =>
    if f.name == name then
      let l := c.referencedFragments c.cur
      if l.contains d.2 then c else { c with refs := mapSet c.refs c.cur (l ++ [d.2]) }
    else c
  | _ => c

/-- `setReferencedFragments` (validation/context.go:248-275). -/
def setReferencedFragments : Visit := fun w =>
  Walker.addEnter w .fragmentSpreadSelection <| handler fun n c =>
    match n with
    | .fragmentSpreadSelection (.spread name _) => .ret (c.doc.defs.zipIdx.foldl (refStep name) c)
    | _ => .ret c

/-- `setVariableUsages` (validation/context.go:278-292). -/
def setVariableUsages : Visit := fun w =>
  Walker.addEnter w .variableValue <| handler fun n c =>
    match n with
    | .variableValue (.var name) =>
      let l := c.variableUsages c.cur
      if l.contains name then .ret c else .ret { c with usages := mapSet c.usages c.cur (l ++ [name]) }
    | _ => .ret c

/-- `queryContextDecoratorWalker` (validation/context.go:10-15). -/
def queryContextDecoratorWalker : Walker (Out Ctx) :=
  newWalker [setFragments, setExecutableDefinition, setReferencedFragments, setVariableUsages]

/-- `NewContext` (validation/context.go:21-34). -/
def newContext (doc : Document) (schema : Option Schema) : Out Ctx :=
  Walker.walk queryContextDecoratorWalker (.ret { doc := doc, schema := schema.getD {} }) doc

/-- The name `PrepareContextSDL` gives to an operation without a name (validation/context.go:334-336). -/
def anonName : Bytes := b!"$$query"

/-- The assignment `odef.Name = "$$query"` (validation/context.go:334-336): it changes the definition in the document. -/
def nameAnonymous (d : Definition) : Definition :=
  match d.body with
  | .op o => if o.name = [] then { d with body := .op { o with name := anonName } } else d
  | _ => d

/-- The body of the loop of `PrepareContextSDL` (validation/context.go:328-410) for definition number `i`, which has its name already. -/
def prepareStep (c : Ctx) (s : SDLContext) (d : Definition × Nat) : Ctx × SDLContext :=
  match d.1.body with
  | .op o => ({ c with operations := mapSet c.operations o.name d.2 }, s)
  | .frag f => ({ c with fragments := mapSet c.fragments f.name f }, s)
  | .directive dd =>
    if (c.schema.directives.lookup dd.name).isSome then (c.addError (existedDirectiveNameError dd.name), s)
    else if (s.directives.lookup dd.name).isSome then (c.addError (duplicateDirectiveNameError dd.name), s)
    else (c, { s with directives := mapSet s.directives dd.name dd })
  | .schema sd =>
    if s.isExtending then (c.addError canNotDefineSchemaWithinExtensionError, s)
    else if s.schemaDef.isSome then (c.addError schemaDefinitionNotAloneError, s)
    else (c, { s with schemaDef := some sd })
  | .type t =>
    if (c.schema.types.lookup t.name).isSome then (c.addError (existedTypeNameError t.name), s)
    else if (s.types.lookup t.name).isSome then (c.addError (duplicateTypeNameError t.name), s)
    else (c, { s with types := mapSet s.types t.name t })
  | .schemaExt e => (c, { s with schemaExts := s.schemaExts ++ [e] })
  | .typeExt e => (c, { s with typeExts := mapSet s.typeExts e.name ((s.typeExts.lookup e.name).getD [] ++ [e]) })

/-- `NewSDLContext` and `PrepareContextSDL` (validation/context.go:37-57, 300-411). -/
def newSDLContext (doc : Document) (schema : Option Schema) : Ctx :=
  let doc := { doc with defs := doc.defs.map nameAnonymous }
  let p := doc.defs.zipIdx.foldl (fun (p : Ctx × SDLContext) d => prepareStep p.1 p.2 d)
    ({ doc := doc, schema := schema.getD {} }, { isExtending := schema.isSome })
  { p.1 with sdl := some p.2 }

end GQL

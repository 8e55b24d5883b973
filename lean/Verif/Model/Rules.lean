/-
Model of validation/rules/*.go and validation/validate.go.

Rules with an empty body (FieldsOnCorrectType, ...) register nothing and are left out.
-/
import Verif.Model.Context

namespace GQL

/-- `getDefinitionName` (validation/rules/rule_executable_definitions.go:18-45). -/
def getDefinitionName (d : Definition) : Bytes :=
  match d.body with
  | .schema _ => b!"schema"
  | .type t => t.name
  | .directive dd => dd.name
  | .schemaExt _ => b!"schema"
  | .typeExt t => t.name
  | .op _ | .frag _ => []

/-- `def.Kind == ast.DefinitionKindExecutable` (ast/ast.go:55-62). -/
def Definition.isExecutable (d : Definition) : Bool :=
  match d.body with
  | .op _ | .frag _ => true
  | _ => false

/-- `ExecutableDefinitions` (validation/rules/rule_executable_definitions.go:9-15). -/
def executableDefinitions : Visit := fun w =>
  Walker.addEnter w .definition <| handler fun n c =>
    match n with
    | .definition _ d => .ret (if !d.isExecutable then c.addError (nonExecutableDefinitionError (getDefinitionName d)) else c)
    | _ => .ret c

/-- The generator `defGen` after `Reset` (validation/rules/rule_known_argument_names.go:39): `Generator()` does not set `original`, so
`Reset` leaves nothing to return (theorem C27_exact). -/
def resetGenerator (_defs : List InputVal) : List InputVal := []

/-- The loop of `KnownArgumentNamesOnDirectives` (validation/rules/rule_known_argument_names.go:30-44); `gen` is what `defGen` has
yet to return. -/
def knownArgumentsLoop (directiveName : Bytes) (defs : List InputVal) : List Argument → List InputVal → Ctx → Ctx
  | [], _, c => c
  | a :: as, gen, c =>
    let found := gen.any fun defArg => a.name == defArg.name
    knownArgumentsLoop directiveName defs as (resetGenerator defs)
      (if !found then c.addError (unknownDirectiveArgError a.name directiveName) else c)

/-- `KnownArgumentNamesOnDirectives` (validation/rules/rule_known_argument_names.go:12-46). -/
def knownArgumentNamesOnDirectives : Visit := fun w =>
  Walker.addEnter w .directive <| handler fun n c =>
    match n with
    | .directive dir =>
      if dir.args.length = 0 then .ret c
      else (c.directiveDefinition dir.name).bind fun p =>
        match p.1 with
        | none => .ret c
        | some dd => .ret (knownArgumentsLoop dir.name dd.args dir.args dd.args c)
    | _ => .ret c

/-- `t.NonNullable`. -/
def Ty.nonNull : Ty → Bool
  | .named _ nn | .list _ nn | .listNil nn => nn

/-- `ctx.SDLContext.DirectiveDefinitions[name]` if there is an SDL context. -/
def Ctx.documentDirective (c : Ctx) (name : Bytes) : Option DirDef :=
  match c.sdl with
  | some s => s.directives.lookup name
  | none => none

/-- `ctx.SDLContext.TypeDefinitions[name]` if there is an SDL context. -/
def Ctx.documentType (c : Ctx) (name : Bytes) : Option TypeDef :=
  match c.sdl with
  | some s => s.types.lookup name
  | none => none

/-- The lookup of `KnownDirectives` (validation/rules/rule_known_directives.go:15-30). -/
def knownDirectiveDefinition (c : Ctx) (name : Bytes) : Option DirDef :=
  match c.schema.directives.lookup name with
  | some d => some d
  | none =>
    match c.documentDirective name with
    | some d => some d
    | none => specifiedDirectives.lookup name

/-- `KnownDirectives` (validation/rules/rule_known_directives.go:10-43). -/
def knownDirectives : Visit := fun w =>
  Walker.addEnter w .directive <| handler fun n c =>
    match n with
    | .directive dir =>
      match knownDirectiveDefinition c dir.name with
      | none => .ret (c.addError (unknownDirectiveError dir.name))
      | some dd => .ret (if dd.locs &&& dir.loc.bit = 0 then c.addError (misplacedDirectiveError dir.name dir.loc) else c)
    | _ => .ret c

/-- `isSpecifiedScalarName` (validation/rules/rule_known_type_names.go:34-41). -/
def isSpecifiedScalarName (n : Bytes) : Bool :=
  n == b!"String" || n == b!"Int" || n == b!"Float" || n == b!"Boolean" || n == b!"ID"

/-- The name of a type: `t.NamedType` (empty for a list type). -/
def Ty.namedType : Ty → Bytes
  | .named n _ => n
  | .list _ _ | .listNil _ => []

/-- `KnownTypeNames` (validation/rules/rule_known_type_names.go:9-28). -/
def knownTypeNames : Visit := fun w =>
  Walker.addEnter w .namedType <| handler fun n c =>
    match n with
    | .namedType t =>
      let existsInSchema := (c.schema.types.lookup t.namedType).isSome
      let existsInDocument := (c.documentType t.namedType).isSome
      .ret (if !existsInSchema && !existsInDocument && !isSpecifiedScalarName t.namedType
        then c.addError (unknownTypeError t.namedType) else c)
    | _ => .ret c

/-- `LoneAnonymousOperation` (validation/rules/rule_lone_anonymous_operation.go:12-18). -/
def loneAnonymousOperation : Visit := fun w =>
  Walker.addEnter w .operationDefinition <| handler fun n c =>
    match n with
    | .operationDefinition _ o => .ret (if o.name = [] ∧ c.doc.operations > 1 then c.addError anonOperationNotAloneError else c)
    | _ => .ret c

/-- The bound on the recursion depth that `NoUnusedVariables` is run with; theorem `usagesIter_returns` shows that it is never reached. -/
def Ctx.depthBound (c : Ctx) : Nat := c.doc.defs.length + 1

/-- The loop of `NoUnusedVariables` (validation/rules/rule_no_unused_variables.go:18-29). -/
def unusedLoop (uses : List Bytes) (opName : Bytes) : List VarDef → Ctx → Ctx
  | [], c => c
  | v :: vs, c =>
    let used := uses.any fun k => k == v.name
    unusedLoop uses opName vs (if !used then c.addError (unusedVariableError v.name opName) else c)

/-- `NoUnusedVariables` (validation/rules/rule_no_unused_variables.go:9-31). -/
def noUnusedVariables : Visit := fun w =>
  Walker.addLeave w .executableDefinition <| handler fun n c =>
    match n with
    | .executableDefinition i (.op o) =>
      (c.recursiveVariableUsages c.depthBound (some i)).bind fun uses => .ret (unusedLoop uses o.name o.vars c)
    | _ => .ret c

/-- The two underscores test `isValidName` (validation/rules/rule_possible_names.go:44-50). -/
def isValidName : Bytes → Bool
  | a :: b :: _ => a != 95 && b != 95
  | _ => true

/-- The body of the four handlers of `PossibleNames` (validation/rules/rule_possible_names.go:16-18). -/
def checkName (name : Bytes) (c : Ctx) : Ctx :=
  if !isValidName name then c.addError (nameStartsWithTwoUnderscoresError name) else c

/-- `PossibleNames` (validation/rules/rule_possible_names.go:12-41). -/
def possibleNames : Visit := fun w =>
  let w := Walker.addEnter w .inputValueDefinition <| handler fun n c =>
    match n with
    | .inputValueDefinition d => .ret (checkName d.name c)
    | _ => .ret c
  let w := Walker.addEnter w .directiveDefinition <| handler fun n c =>
    match n with
    | .directiveDefinition d => .ret (checkName d.name c)
    | _ => .ret c
  let w := Walker.addEnter w .fieldDefinition <| handler fun n c =>
    match n with
    | .fieldDefinition d => .ret (checkName d.name c)
    | _ => .ret c
  Walker.addEnter w .typeDefinition <| handler fun n c =>
    match n with
    | .typeDefinition d => .ret (checkName d.name c)
    | _ => .ret c

/-- `PossibleTypeExtensions` (validation/rules/rule_possible_type_extensions.go:18-32).  `defKindToExtKind` (8-15) maps a kind of definition
to the kind of extension with the same name, that is, to the same `TypeKind`. -/
def possibleTypeExtensions : Visit := fun w =>
  Walker.addEnter w .typeExtension <| handler fun n c =>
    match n with
    | .typeExtension ext =>
      (c.typeDefinition ext.name).bind fun p =>
        match p.1 with
        | some t => .ret (if ext.kind ≠ t.kind then c.addError (extendingDifferentTypeKindError ext.name t.kind.str) else c)
        | none => .ret (c.addError (extendingUnknownTypeError ext.name))
    | _ => .ret c

/-- The loop of `ProvidedRequiredArgumentsOnDirectives` (validation/rules/rule_provided_required_arguments.go:35-41). -/
def requiredLoop (d : Directive) : List InputVal → Ctx → Ctx
  | [], c => c
  | ivd :: ivds, c =>
    let provided := d.args.any fun a => a.name == ivd.name
    requiredLoop d ivds
      (if !provided && ivd.default.isNone && ivd.type.nonNull then c.addError (missingDirectiveArgError d.name ivd.name ivd.type.str) else c)

/-- `ProvidedRequiredArgumentsOnDirectives` (validation/rules/rule_provided_required_arguments.go:13-43); panics without an SDL context when
the schema does not have the directive. -/
def providedRequiredArgumentsOnDirectives : Visit := fun w =>
  Walker.addEnter w .directive <| handler fun n c =>
    match n with
    | .directive d =>
      match c.schema.directives.lookup d.name with
      | some dd => .ret (requiredLoop d dd.args c)
      | none =>
        match c.sdl with
        | none => .panic
        | some s =>
          match s.directives.lookup d.name with
          | some dd => .ret (requiredLoop d dd.args c)
          | none =>
            match specifiedDirectives.lookup d.name with
            | some dd => .ret (requiredLoop d dd.args c)
            | none => .ret c
    | _ => .ret c

/-- The loop that remembers the names it has met and reports the others: `validateArguments`, `validateInputValueDefinitions`
(validation/rules/rule_unique_argument_names.go:36-63), `UniqueDirectivesPerLocation` (rule_unique_directives_per_location.go:15-25) and
`UniqueInputFieldNames` (rule_unique_input_field_names.go:12-22).  The four loops are the same up to the error. -/
def repeatsLoop (err : Bytes → GErr) : List Bytes → List Bytes → Ctx → Ctx
  | _, [], c => c
  | known, name :: names, c =>
    if known.contains name then repeatsLoop err known names (c.addError (err name))
    else repeatsLoop err (name :: known) names c

/-- `validateArguments` (validation/rules/rule_unique_argument_names.go:36-48). -/
def validateArguments (args : List Argument) (c : Ctx) : Ctx := repeatsLoop duplicateArgError [] (args.map (·.name)) c

/-- `validateInputValueDefinitions` (validation/rules/rule_unique_argument_names.go:51-63). -/
def validateInputValueDefinitions (ivds : List InputVal) (c : Ctx) : Ctx := repeatsLoop duplicateArgError [] (ivds.map (·.name)) c

/-- `UniqueArgumentNames` (validation/rules/rule_unique_argument_names.go:9-33). -/
def uniqueArgumentNames : Visit := fun w =>
  let w := Walker.addEnter w .fieldSelection <| handler fun n c =>
    match n with
    | .fieldSelection (.field _ _ args _ _) => .ret (validateArguments args c)
    | _ => .ret c
  let w := Walker.addEnter w .directive <| handler fun n c =>
    match n with
    | .directive d => .ret (validateArguments d.args c)
    | _ => .ret c
  let w := Walker.addEnter w .fieldDefinition <| handler fun n c =>
    match n with
    | .fieldDefinition d => .ret (validateInputValueDefinitions d.args c)
    | _ => .ret c
  Walker.addEnter w .directiveDefinition <| handler fun n c =>
    match n with
    | .directiveDefinition d => .ret (validateInputValueDefinitions d.args c)
    | _ => .ret c

/-- `UniqueDirectivesPerLocation` (validation/rules/rule_unique_directives_per_location.go:9-27). -/
def uniqueDirectivesPerLocation : Visit := fun w =>
  Walker.addEnter w .directives <| handler fun n c =>
    match n with
    | .directives ds => .ret (if ds.length = 0 then c else repeatsLoop duplicateDirectiveError [] (ds.map (·.name)) c)
    | _ => .ret c

/-- `UniqueInputFieldNames` (validation/rules/rule_unique_input_field_names.go:9-24). -/
def uniqueInputFieldNames : Visit := fun w =>
  Walker.addEnter w .objectValue <| handler fun n c =>
    match n with
    | .objectValue (.obj fs) => .ret (repeatsLoop duplicateInputFieldError [] (fs.map (·.1)) c)
    | _ => .ret c

/-- `UniqueOperationNames` (validation/rules/rule_unique_operation_names.go:9-18; not enabled).  `nameMatchDef != od` compares pointers. -/
def uniqueOperationNames : Visit := fun w =>
  Walker.addEnter w .operationDefinition <| handler fun n c =>
    match n with
    | .operationDefinition i o =>
      match c.operations.lookup o.name with
      | some j => .ret (if j ≠ i then c.addError (duplicateOperationNameError o.name) else c)
      | none => .ret c
    | _ => .ret c

/-- `ctx.SDLContext.QueryTypeDefined` and so on. -/
def SDLContext.defined (s : SDLContext) : OpKind → Bool
  | .query => s.queryDefined
  | .mutation => s.mutationDefined
  | .subscription => s.subscriptionDefined

/-- `ctx.SDLContext.QueryTypeDefined = true` and so on. -/
def SDLContext.define (s : SDLContext) : OpKind → SDLContext
  | .query => { s with queryDefined := true }
  | .mutation => { s with mutationDefined := true }
  | .subscription => { s with subscriptionDefined := true }

/-- `ctx.Schema.QueryType` and so on. -/
def Schema.rootType (s : Schema) : OpKind → Option Ty
  | .query => s.queryType
  | .mutation => s.mutationType
  | .subscription => s.subscriptionType

/-- The loop of the first handler of `UniqueOperationTypes` (validation/rules/rule_unique_operation_types.go:15-40); `defined` are the local
variables. -/
def schemaOpsLoop : List OpTypeDef → (defined : OpKind → Bool) → Ctx → SDLContext → Ctx
  | [], _, c, s => { c with sdl := some s }
  | o :: os, defined, c, s =>
    schemaOpsLoop os (fun k => k == o.op || defined k)
      (if defined o.op then c.addError (duplicateOperationTypeError o.op.str) else c) (s.define o.op)

/-- The loop of the second handler of `UniqueOperationTypes` (validation/rules/rule_unique_operation_types.go:44-71). -/
def schemaExtOpsLoop : List OpTypeDef → Ctx → SDLContext → Ctx
  | [], c, s => { c with sdl := some s }
  | o :: os, c, s =>
    schemaExtOpsLoop os
      (if (c.schema.rootType o.op).isSome then c.addError (existedOperationTypeError o.op.str)
        else if s.defined o.op then c.addError (duplicateOperationTypeError o.op.str) else c) (s.define o.op)

/-- `UniqueOperationTypes` (validation/rules/rule_unique_operation_types.go:9-73); panics without an SDL context (if there is an
operation type definition, which the parser guarantees for definitions). -/
def uniqueOperationTypes : Visit := fun w =>
  let w := Walker.addLeave w .schemaDefinition <| handler fun n c =>
    match n with
    | .schemaDefinition d =>
      match c.sdl with
      | none => if d.ops.isEmpty then .ret c else .panic
      | some s => .ret (schemaOpsLoop d.ops (fun _ => false) c s)
    | _ => .ret c
  Walker.addLeave w .schemaExtension <| handler fun n c =>
    match n with
    | .schemaExtension d =>
      match c.sdl with
      | none => if d.ops.isEmpty then .ret c else .panic
      | some s => .ret (schemaExtOpsLoop d.ops c s)
    | _ => .ret c

/-- The rules that register handlers. -/
inductive Rule where
  | executableDefinitions | knownArgumentNamesOnDirectives | knownDirectives | knownTypeNames | loneAnonymousOperation | noUnusedVariables
  | possibleNames | possibleTypeExtensions | providedRequiredArgumentsOnDirectives | uniqueArgumentNames | uniqueDirectivesPerLocation
  | uniqueInputFieldNames | uniqueOperationNames | uniqueOperationTypes
  deriving DecidableEq, Repr

/-- The visit function of a rule. -/
def Rule.visit : Rule → Visit
  | .executableDefinitions => GQL.executableDefinitions
  | .knownArgumentNamesOnDirectives => GQL.knownArgumentNamesOnDirectives
  | .knownDirectives => GQL.knownDirectives
  | .knownTypeNames => GQL.knownTypeNames
  | .loneAnonymousOperation => GQL.loneAnonymousOperation
  | .noUnusedVariables => GQL.noUnusedVariables
  | .possibleNames => GQL.possibleNames
  | .possibleTypeExtensions => GQL.possibleTypeExtensions
  | .providedRequiredArgumentsOnDirectives => GQL.providedRequiredArgumentsOnDirectives
  | .uniqueArgumentNames => GQL.uniqueArgumentNames
  | .uniqueDirectivesPerLocation => GQL.uniqueDirectivesPerLocation
  | .uniqueInputFieldNames => GQL.uniqueInputFieldNames
  | .uniqueOperationNames => GQL.uniqueOperationNames
  | .uniqueOperationTypes => GQL.uniqueOperationTypes

/-- `Specified` (validation/rules/rules.go:12-39). -/
def specified : List Rule :=
  [.executableDefinitions, .loneAnonymousOperation, .knownTypeNames, .noUnusedVariables, .knownDirectives, .uniqueDirectivesPerLocation,
   .uniqueArgumentNames, .uniqueInputFieldNames]

/-- `SpecifiedSDL` (validation/rules/rules.go:47-67). -/
def specifiedSDL : List Rule :=
  [.uniqueOperationTypes, .uniqueDirectivesPerLocation, .uniqueArgumentNames, .uniqueInputFieldNames, .knownArgumentNamesOnDirectives,
   .knownDirectives, .knownTypeNames, .possibleNames, .possibleTypeExtensions, .providedRequiredArgumentsOnDirectives]

/-- `NewWalker(rules)` for a list of rules (validation/walker.go:81-88, graphqlparser.go:13-15). -/
def rulesWalker (rs : List Rule) : Walker (Out Ctx) := newWalker (rs.map Rule.visit)

/-- `Validate` (validation/validate.go:12-18). -/
def validate (doc : Document) (schema : Option Schema) (walker : Walker (Out Ctx)) : Out Ctx :=
  Walker.walk walker (newContext doc schema) doc

/-- `ValidateSDL` (validation/validate.go:21-27).  The document that is walked is the one `PrepareContextSDL` has changed. -/
def validateSDL (doc : Document) (schema : Option Schema) (walker : Walker (Out Ctx)) : Out Ctx :=
  let c := newSDLContext doc schema
  Walker.walk walker (.ret c) c.doc

end GQL

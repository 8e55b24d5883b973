/-
The errors each validation rule has to report for a document, as multisets (the lists are compared up to order).
-/
import Verif.Spec.Rules
import Verif.Spec.Messages
import Verif.Props.C17

namespace GQL.Spec
open Classical

/-- Each name (or whatever) as often as it occurs in the list, less one. -/
def repeated {α : Type} [BEq α] (l : List α) : List α := l.eraseDups.flatMap fun n => List.replicate (l.count n - 1) n

/-- One error for each definition that is not an operation or a fragment. -/
def nonExecutableErrors (doc : Document) : List GErr :=
  (doc.defs.filterMap fun d => definitionName d.body).map Says.notExecutable

/-- One error for each operation without a name, if the document has another operation. -/
def anonymousErrors (doc : Document) : List GErr :=
  if (operations doc.defs).length > 1 then ((operations doc.defs).filter fun o => o.name = []).map fun _ => Says.notAlone else []

/-- One error for each repetition of the name of an operation; operations without a name count as named `$$query`. -/
def repeatedOperationErrors (doc : Document) : List GErr :=
  (repeated ((operations doc.defs).map fun o => if o.name = [] then b!"$$query" else o.name)).map Says.repeatedOperation

/-- One error for each reference to a type that is not known; `defs` are the types the document defines. -/
noncomputable def unknownTypeErrors (schema : Option Schema) (defs : List TypeDef) (doc : Document) : List GErr :=
  ((typeNames doc).filter fun n => ¬ KnownType schema defs n).map Says.unknownType

/-- One error for each variable of an operation that is not used in the operation or a fragment it reaches. -/
noncomputable def unusedVariableErrors (doc : Document) : List GErr :=
  doc.defs.flatMap fun d => match d.body with
    | .op o => (o.vars.filter fun v => ¬ Used doc d v.name).map fun v => Says.unusedVariable v.name o.name
    | _ => []

/-- One error for each directive that is not defined or stands where its definition does not allow it; `defs` are the directives the document
defines. -/
noncomputable def directiveErrors (schema : Option Schema) (defs : List DirDef) (doc : Document) : List GErr :=
  (directives doc).flatMap fun d => match directiveDef schema defs d.name with
    | none => [Says.unknownDirective d.name]
    | some dd => if inMask d.loc dd.locs then [] else [Says.misplacedDirective d.name d.loc]

/-- For each place with directives, one error for each repetition of a directive. -/
def repeatedDirectiveErrors (doc : Document) : List GErr :=
  (directiveLists doc).flatMap fun l => (repeated (l.map (·.name))).map Says.repeatedDirective

/-- For each list of arguments (or argument definitions), one error for each repetition of a name. -/
def repeatedArgumentErrors (doc : Document) : List GErr := (argumentLists doc).flatMap fun l => (repeated l).map Says.repeatedArgument

/-- For each object value, one error for each repetition of a field. -/
def repeatedInputFieldErrors (doc : Document) : List GErr := (inputObjects doc).flatMap fun l => (repeated l).map Says.repeatedInputField

/-- One error for each definition of a type (or directive) that the schema has, and one for each repetition of any other. -/
noncomputable def definitionErrors {β : Type} (m : GMap β) (names : List Bytes) (existed duplicate : Bytes → GErr) : List GErr :=
  (names.filter fun n => (m.lookup n).isSome).map existed ++ (repeated (names.filter fun n => ¬ (m.lookup n).isSome)).map duplicate

/-- The errors about types, directives and schemas that are defined more than once. -/
noncomputable def uniquenessErrors (schema : Option Schema) (doc : Document) : List GErr :=
  definitionErrors (schemaTypes schema) ((typeDefs doc.defs).map (·.name)) Says.existingType Says.repeatedType ++
  definitionErrors (schemaDirectives schema) ((directiveDefs doc.defs).map (·.name)) Says.existingDirective Says.repeatedDirectiveName ++
  (if schema.isSome then List.replicate (schemaDefs doc.defs).length Says.schemaInExtension
    else List.replicate ((schemaDefs doc.defs).length - 1) Says.repeatedSchema)

/-- One error for each argument that the definition of its directive does not have. -/
noncomputable def unknownArgumentErrors (schema : Option Schema) (defs : List DirDef) (doc : Document) : List GErr :=
  (directives doc).flatMap fun d => match directiveDef schema defs d.name with
    | none => []
    | some dd => (d.args.filter fun a => ¬ ∃ v ∈ dd.args, v.name = a.name).map fun a => Says.unknownArgument a.name d.name

/-- Is the type written with `!`? -/
def isNonNull : Ty → Bool
  | .named _ b | .list _ b | .listNil b => b

/-- One error for each argument that is required by the definition of a directive and not given. -/
noncomputable def missingArgumentErrors (schema : Option Schema) (defs : List DirDef) (doc : Document) : List GErr :=
  (directives doc).flatMap fun d => match directiveDef schema defs d.name with
    | none => []
    | some dd => (dd.args.filter fun v => isNonNull v.type ∧ v.default.isNone ∧ ¬ ∃ a ∈ d.args, a.name = v.name).map
        fun v => Says.missingArgument d.name v.name v.type

/-- The type that an extension extends: the schema's, else the document's (the first one). -/
def extendedType (schema : Option Schema) (defs : List TypeDef) (n : Bytes) : Option TypeDef :=
  match (schemaTypes schema).lookup n with
  | some t => some t
  | none => defs.find? fun t => t.name == n

/-- One error for each extension of an unknown type or of a type of another kind. -/
def extensionErrors (schema : Option Schema) (doc : Document) : List GErr :=
  (typeExts doc.defs).flatMap fun e => match extendedType schema (typeDefs doc.defs) e.name with
    | none => [Says.extendsUnknown e.name]
    | some t => if e.kind = t.kind then [] else [Says.extendsOther e.name t.kind]

/-- The names of all types, fields, arguments, input fields and directives that the document defines. -/
def definedNames (doc : Document) : List Bytes :=
  (nodes doc).filterMap fun n => match n with
    | .typeDefinition t => some t.name
    | .fieldDefinition f => some f.name
    | .inputValueDefinition v => some v.name
    | .directiveDefinition d => some d.name
    | _ => none

end GQL.Spec

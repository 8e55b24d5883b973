/-
What the validation rules are about: the relevant pieces of a document, and the lookups, said without the walker or the contexts.
-/
import Verif.Spec.Fragments
import Verif.Spec.Definitions
import Verif.Spec.BuiltIn
import Verif.Model.Context

namespace GQL.Spec

/-- The name of a named type. -/
def tyName : Ty → Bytes
  | .named n _ => n
  | _ => []

/-- Every reference to a type by name, anywhere in the document. -/
def typeNames (doc : Document) : List Bytes := (nodes doc).filterMap fun n => match n with | .namedType t => some (tyName t) | _ => none

/-- Every directive in the document. -/
def directives (doc : Document) : List Directive := (nodes doc).filterMap fun n => match n with | .directive d => some d | _ => none

/-- Every list of directives (one for each place that has directives). -/
def directiveLists (doc : Document) : List (List Directive) :=
  (nodes doc).filterMap fun n => match n with | .directives ds => some ds | _ => none

/-- The names in every argument list of a field or directive and every argument definition list of a field or directive definition. -/
def argumentLists (doc : Document) : List (List Bytes) :=
  (nodes doc).filterMap fun n => match n with
    | .fieldSelection (.field _ _ args _ _) => some (args.map (·.name))
    | .directive d => some (d.args.map (·.name))
    | .fieldDefinition d => some (d.args.map (·.name))
    | .directiveDefinition d => some (d.args.map (·.name))
    | _ => none

/-- The field names of every object value, at any depth. -/
def inputObjects (doc : Document) : List (List Bytes) :=
  (nodes doc).filterMap fun n => match n with | .objectValue (.obj fs) => some (fs.map (·.1)) | _ => none

/-- The types of a schema; nil has none. -/
def schemaTypes (schema : Option Schema) : GMap TypeDef := match schema with | some s => s.types | none => []

/-- The directives of a schema; nil has none. -/
def schemaDirectives (schema : Option Schema) : GMap DirDef := match schema with | some s => s.directives | none => []

def builtinScalars : List Bytes := [b!"String", b!"Int", b!"Float", b!"Boolean", b!"ID"]

/-- The type name is in the schema, defined in the document or built in. -/
def KnownType (schema : Option Schema) (defs : List TypeDef) (n : Bytes) : Prop :=
  ((schemaTypes schema).lookup n).isSome ∨ (∃ t ∈ defs, t.name = n) ∨ n ∈ builtinScalars

/-- The definition of a directive: the schema's, else the document's (the first one), else the built-in one. -/
def directiveDef (schema : Option Schema) (defs : List DirDef) (n : Bytes) : Option DirDef :=
  match (schemaDirectives schema).lookup n with
  | some d => some d
  | none =>
    match defs.find? (fun d => d.name == n) with
    | some d => some d
    | none => builtInDirectives.lookup n

/-- The name under which `ExecutableDefinitions` reports a definition. -/
def definitionName : Body → Option Bytes
  | .op _ | .frag _ => none
  | .schema _ | .schemaExt _ => some b!"schema"
  | .type t | .typeExt t => some t.name
  | .directive d => some d.name

end GQL.Spec

/-
What a type definition becomes when extensions are merged into it, and the shape of a parsed definition.
-/
import Verif.Spec.Rules

namespace GQL.Spec

/-- The lists that a definition of another kind has are empty, and there is a name. -/
structure Shape (t : TypeDef) : Prop where
  named : t.name ≠ []
  ifaces : t.kind ≠ .object → t.ifaces = []
  fields : t.kind ≠ .object → t.kind ≠ .interface → t.fields = []
  members : t.kind ≠ .union → t.members = []
  values : t.kind ≠ .enum → t.values = []
  inputs : t.kind ≠ .inputObject → t.inputs = []

/-- The definition with all members of the extensions after its own, in order. -/
def extended (t : TypeDef) (es : List TypeDef) : TypeDef :=
  { t with
    dirs := t.dirs ++ es.flatMap (·.dirs)
    ifaces := t.ifaces ++ es.flatMap (·.ifaces)
    fields := t.fields ++ es.flatMap (·.fields)
    members := t.members ++ es.flatMap (·.members)
    values := t.values ++ es.flatMap (·.values)
    inputs := t.inputs ++ es.flatMap (·.inputs) }

/-- The same, where nothing is added to a list that is empty. -/
def after {α : Type} (own more : List α) : List α := match own with | [] => [] | own => own ++ more

/-- The definition as the code extends it: nothing is added to a list that the definition has no members of its own in. -/
def extendedOwn (t : TypeDef) (es : List TypeDef) : TypeDef :=
  { t with
    dirs := after t.dirs (es.flatMap (·.dirs))
    ifaces := after t.ifaces (es.flatMap (·.ifaces))
    fields := after t.fields (es.flatMap (·.fields))
    members := after t.members (es.flatMap (·.members))
    values := after t.values (es.flatMap (·.values))
    inputs := after t.inputs (es.flatMap (·.inputs)) }

/-- The extensions of the type named `n` in the document. -/
def extensionsOf (ds : List Definition) (n : Bytes) : List TypeDef := (typeExts ds).filter fun e => e.name == n

/-- The root type for operations of kind `k` that the entries give: the last one. -/
def rootOf (ops : List OpTypeDef) (k : OpKind) : Option Ty := (ops.reverse.find? fun o => decide (o.op = k)).map (·.type)

/-- The schema definition that counts: the first one of the document (none if a schema is extended), with the members of all schema extensions; or, if
there is none, the one that names `Query`. -/
def schemaDefinition (schema : Option Schema) (ds : List Definition) : SchemaDef :=
  match (if schema.isSome then none else (schemaDefs ds).head?) with
  | some d => { dirs := after d.dirs ((schemaExts ds).flatMap (·.dirs)), ops := after d.ops ((schemaExts ds).flatMap (·.ops)) }
  | none => { dirs := [], ops := [⟨.named b!"Query" false, .query⟩] }

/-- What the schema built from the definitions `ds` (extending `schema`, if not nil) contains, up to the order of map entries. -/
structure Built (schema : Option Schema) (ds : List Definition) (b : Schema) : Prop where
  typesOnce : (b.types.map (·.1)).Nodup
  directivesOnce : (b.directives.map (·.1)).Nodup
  types : ∀ n, b.types.lookup n =
    if ((schemaTypes schema).lookup n).isSome then none else match (typeDefs ds).find? (fun t => t.name == n) with
      | some t => some (extendedOwn t (extensionsOf ds n))
      | none => if schema.isSome then none else builtInTypes.lookup n
  directives : ∀ n, b.directives.lookup n =
    if ((schemaDirectives schema).lookup n).isSome then none else match (directiveDefs ds).find? (fun t => t.name == n) with
      | some d => some d
      | none => if schema.isSome then none else builtInDirectives.lookup n
  definition : b.definition = some (schemaDefinition schema ds)
  query : b.queryType = (rootOf (schemaDefinition schema ds).ops .query).or (schema.bind (·.queryType))
  mutation : b.mutationType = (rootOf (schemaDefinition schema ds).ops .mutation).or (schema.bind (·.mutationType))
  subscription : b.subscriptionType = (rootOf (schemaDefinition schema ds).ops .subscription).or (schema.bind (·.subscriptionType))

end GQL.Spec

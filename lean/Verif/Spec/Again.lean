/-
C96: which documents have extensions that add something to a list of what they extend.
-/
import Verif.Spec.Definitions

namespace GQL.Spec

/-- Both have members of the same sort, of which extensions of that kind take care. -/
def AddsTo (t e : TypeDef) : Prop :=
  (t.dirs ≠ [] ∧ e.dirs ≠ []) ∨ match e.kind with
    | .object => (t.fields ≠ [] ∧ e.fields ≠ []) ∨ (t.ifaces ≠ [] ∧ e.ifaces ≠ [])
    | .interface => t.fields ≠ [] ∧ e.fields ≠ []
    | .union => t.members ≠ [] ∧ e.members ≠ []
    | .enum => t.values ≠ [] ∧ e.values ≠ []
    | .inputObject => t.inputs ≠ [] ∧ e.inputs ≠ []
    | .scalar => False

/-- The same for the schema definition. -/
def AddsToSchema (t e : SchemaDef) : Prop := (t.dirs ≠ [] ∧ e.dirs ≠ []) ∨ (t.ops ≠ [] ∧ e.ops ≠ [])

/-- Some extension in the document adds to a list that is not empty in the definition that it extends. -/
def Extends (ds : List Definition) : Prop :=
  (∃ e ∈ typeExts ds, ∃ t, (typeDefs ds).find? (fun t => t.name == e.name) = some t ∧ AddsTo t e) ∨
  (∃ e ∈ schemaExts ds, ∃ t, (schemaDefs ds).head? = some t ∧ AddsToSchema t e)

end GQL.Spec

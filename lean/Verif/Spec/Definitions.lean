/-
The definitions of a document by sort, in source order.
-/
import Verif.Model.Ast

namespace GQL.Spec

def typeDefs (ds : List Definition) : List TypeDef := ds.filterMap fun d => match d.body with | .type t => some t | _ => none
def directiveDefs (ds : List Definition) : List DirDef := ds.filterMap fun d => match d.body with | .directive t => some t | _ => none
def schemaDefs (ds : List Definition) : List SchemaDef := ds.filterMap fun d => match d.body with | .schema t => some t | _ => none
def schemaExts (ds : List Definition) : List SchemaDef := ds.filterMap fun d => match d.body with | .schemaExt t => some t | _ => none
def typeExts (ds : List Definition) : List TypeDef := ds.filterMap fun d => match d.body with | .typeExt t => some t | _ => none
def operations (ds : List Definition) : List OpDef := ds.filterMap fun d => match d.body with | .op t => some t | _ => none

/-- `reps l` has each name once less often than `l` (and not at all if `l` does not have it). -/
def IsRepeats (l r : List Bytes) : Prop := ∀ n, r.count n = l.count n - 1

end GQL.Spec

/-
What a rule may ask of its context.
-/
import Verif.Spec.Rules
import Verif.Spec.Fragments
import Verif.Spec.ValidQuery
import Verif.Model.Rules

namespace GQL.Spec

/-- The last fragment with the name. -/
def lastFragment (doc : Document) (n : Bytes) : Option FragDef := (fragments doc.defs).reverse.find? fun f => f.name == n

/-- The name an operation is listed under. -/
def listedName (o : OpDef) : Bytes := if o.name = [] then b!"$$query" else o.name

/-- Definition number `i` is the last operation listed under the name. -/
def IsLastOperation (doc : Document) (n : Bytes) (i : Nat) : Prop :=
  (∃ d o, doc.defs[i]? = some d ∧ d.body = .op o ∧ listedName o = n) ∧
  ∀ j d o, i < j → doc.defs[j]? = some d → d.body = .op o → listedName o ≠ n

/-- `c` is the context when some of the events of the walk of `Validate` have been handled by the rules. -/
def DuringValidate (doc : Document) (schema : Option Schema) (rs : List Rule) (c : Ctx) : Prop :=
  ∃ c0 done rest, newContext doc schema = .ret c0 ∧ walkDocument c0.doc = done ++ rest ∧
    done.foldl (fun o e => Walker.on (rulesWalker rs) e o) (.ret c0) = .ret c

/-- The same for `ValidateSDL`. -/
def DuringValidateSDL (doc : Document) (schema : Option Schema) (rs : List Rule) (c : Ctx) : Prop :=
  ∃ done rest, walkDocument (newSDLContext doc schema).doc = done ++ rest ∧
    done.foldl (fun o e => Walker.on (rulesWalker rs) e o) (.ret (newSDLContext doc schema)) = .ret c

end GQL.Spec

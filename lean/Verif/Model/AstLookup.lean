/-
Model of `EnumValueDefinitionByName` of ast/ast.go; `FieldDefinitionByName` is in Model/SchemaValidate.
-/
import Verif.Model.Basic
import Verif.Model.Ast

namespace GQL

/-- The zero value `EnumValueDefinition{}` (ast/ast.go:462). -/
def EnumVal.zero : EnumVal := ⟨[], [], []⟩

/-- The loop of `EnumValueDefinitionByName` (ast/ast.go:467-473): `rest` is what the generator has still to give, `iter` its counter
(ast/lists.go:572-585: `Next` gives the zero value and -1 once nothing is left), `len` the length of the list. -/
def enumLoop (name : Bytes) (len : Int) : Nat → List EnumVal → Int → Out (EnumVal × Bool)
  | 0, _, _ => .oof
  | fuel + 1, rest, iter =>
    let p : EnumVal × Int := match rest with
      | [] => (.zero, -1)
      | v :: _ => (v, iter)
    if p.2 < len then
      if p.1.value == name then .ret (p.1, true)
      else enumLoop name len fuel rest.tail (if rest.isEmpty then iter else iter + 1)
    else .ret (.zero, false)

/-- `EnumValueDefinitionByName` (ast/ast.go:461-477). -/
def TypeDef.enumByName (fuel : Nat) (t : TypeDef) (name : Bytes) : Out (EnumVal × Bool) :=
  if t.kind == .enum then enumLoop name t.values.length fuel t.values 0 else .ret (.zero, false)

end GQL

/-
Model of graphqlparser.go.  `pf` is `strconv.ParseFloat` (see Model/Parser).
-/
import Verif.Model.Parser
import Verif.Model.Rules
import Verif.Model.SchemaValidate

namespace GQL

/-- The results of `ParseDoc`; a nil pointer or a nil error is `none`. -/
structure DocResult where
  doc : Option Document
  errors : Option (List GErr)
  err : Option PErr

/-- `ParseDoc` (graphqlparser.go:19-33) with `DefaultValidationWalker` (11-13). -/
def parseDoc (pf : Bytes → Option Nat) (input : Bytes) (schema : Option Schema) : Out DocResult :=
  match parse pf input with
  | .panic => .panic
  | .oof => .oof
  | .err e => .ret { doc := none, errors := none, err := some e }
  | .ok d =>
    (validate d schema (rulesWalker specified)).bind fun ctx =>
      if ctx.errors.length > 0 then .ret { doc := none, errors := some ctx.errors, err := none }
      else .ret { doc := some d, errors := none, err := none }

/-- The results of `ParseSDLDoc`, and what the schema passed in looks like afterwards (`none` if it was nil). -/
structure SDLResult where
  schema : Option Schema
  errors : Option (List GErr)
  err : Option PErr
  after : Option Schema

/-- What can vary from run to run. -/
structure Orders where
  build : BuildOrders
  run : RunOrders

/-- `ParseSDLDoc` (graphqlparser.go:36-60) with `DefaultValidationWalkerSDL` (14-15).  The schema passed in is the one that is built in place. -/
def parseSDLDoc (pf : Bytes → Option Nat) (fuel : Nat) (ord : Orders) (input : Bytes) (schema : Option Schema) : Out SDLResult :=
  match parse pf input with
  | .panic => .panic
  | .oof => .oof
  | .err e => .ret { schema := none, errors := none, err := some e, after := schema }
  | .ok d =>
    (validateSDL d schema (rulesWalker specifiedSDL)).bind fun ctx =>
      if ctx.errors.length > 0 then .ret { schema := none, errors := some ctx.errors, err := none, after := schema }
      else
        (buildSchema ord.build ctx).bind fun ctx =>
          let after := if schema.isSome then some ctx.schema else none
          (validateSchema fuel ord.run ctx ctx.schema).bind fun ctx =>
            if ctx.errors.length > 0 then .ret { schema := none, errors := some ctx.errors, err := none, after := after }
            else .ret { schema := some ctx.schema, errors := none, err := none, after := after }

end GQL

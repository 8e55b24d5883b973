/-
Model of several calls of `BuildSchema` on contexts of one document.
-/
import Verif.Model.HeapBuild

namespace GQL

/-- `BuildSchema(ctx)` (validation/schema_build.go:19-33) for a context that `ValidateSDL(doc, nil, ..)` has made: `ctx.Schema` is an empty schema
(validation/context.go:37-57).  Two such contexts of one document have the same pointers to the definitions of the document (validation/context.go:344-401), and
a map of their own. -/
def PMem.buildFresh (ord : POrders) (m : PMem) (q : PSDL) : Out (PMem × PSchema) := m.buildSchema ord {} q

/-- `BuildSchema(ctx)` for a context with which it has returned `S` before: `ctx.Schema` is that schema, whose maps are the maps of `ctx.SDLContext`, with the
built-in types and directives in them (validation/schema_build.go:37-47, 61-71). -/
def PMem.buildAgain (ord : POrders) (m : PMem) (S : PSchema) (q : PSDL) : Out (PMem × PSchema) :=
  m.buildSchema ord S { q with directives := S.directives, types := S.types }

end GQL

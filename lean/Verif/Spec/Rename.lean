/-
Renaming what the author of a query names: operations, variables, fragments, aliases; and exchanging names of fields, arguments and input fields, and constants.
-/
import Verif.Model.Ast

namespace GQL.Spec

/-- New names, and new constants. -/
structure Renaming where
  op : Bytes → Bytes
  var : Bytes → Bytes
  frag : Bytes → Bytes
  alias : Bytes → Bytes
  field : Bytes → Bytes
  arg : Bytes → Bytes
  key : Bytes → Bytes
  enum : Bytes → Bytes
  str : Bytes → Bytes
  int : Int → Int
  float : Nat → Nat
  bool : Bool → Bool

/-- Different variables, fragments, arguments and input fields keep different names; an operation without a name remains so, one with a name keeps having one.
(Nothing is asked of aliases, field names and constants.) -/
structure Renaming.Distinct (r : Renaming) : Prop where
  var : ∀ a b, r.var a = r.var b → a = b
  frag : ∀ a b, r.frag a = r.frag b → a = b
  arg : ∀ a b, r.arg a = r.arg b → a = b
  key : ∀ a b, r.key a = r.key b → a = b
  op : ∀ a, r.op a = [] ↔ a = []

section
variable (r : Renaming)

mutual
def Renaming.value : Value → Value
  | .var n => .var (r.var n)
  | .int i => .int (r.int i)
  | .float f => .float (r.float f)
  | .str s => .str (r.str s)
  | .bool b => .bool (r.bool b)
  | .null => .null
  | .enum n => .enum (r.enum n)
  | .list vs => .list (Renaming.values vs)
  | .obj fs => .obj (Renaming.pairs fs)
def Renaming.values : List Value → List Value
  | [] => []
  | v :: vs => Renaming.value v :: Renaming.values vs
def Renaming.pairs : List (Bytes × Value) → List (Bytes × Value)
  | [] => []
  | (n, v) :: fs => (r.key n, Renaming.value v) :: Renaming.pairs fs
end

def Renaming.argument (a : Argument) : Argument := ⟨r.arg a.name, r.value a.value⟩
def Renaming.directive (d : Directive) : Directive := ⟨d.name, d.args.map r.argument, d.loc⟩

mutual
def Renaming.selection : Selection → Selection
  | .field al n as ds ss => .field (r.alias al) (r.field n) (as.map r.argument) (ds.map r.directive) (Renaming.selections ss)
  | .spread n ds => .spread (r.frag n) (ds.map r.directive)
  | .inline c ds ss => .inline c (ds.map r.directive) (Renaming.selections ss)
def Renaming.selections : List Selection → List Selection
  | [] => []
  | s :: ss => Renaming.selection s :: Renaming.selections ss
end

def Renaming.varDef (v : VarDef) : VarDef := ⟨r.var v.name, v.type, v.default.map r.value⟩
def Renaming.operation (o : OpDef) : OpDef := ⟨o.kind, r.op o.name, o.vars.map r.varDef, o.dirs.map r.directive, r.selections o.sels⟩
def Renaming.fragment (f : FragDef) : FragDef := ⟨r.frag f.name, f.cond, f.dirs.map r.directive, r.selections f.sels⟩

/-- Operations and fragments are renamed, definitions of types and the like are as they were. -/
def Renaming.body : Body → Body
  | .op o => .op (r.operation o)
  | .frag f => .frag (r.fragment f)
  | b => b
def Renaming.definition (d : Definition) : Definition := ⟨d.loc, r.body d.body⟩
def Renaming.document (d : Document) : Document := { d with defs := d.defs.map r.definition }
end

/-- The document has operations and fragments only. -/
def QueryOnly (d : Document) : Prop := ∀ x ∈ d.defs, (∃ o, x.body = .op o) ∨ ∃ f, x.body = .frag f

end GQL.Spec

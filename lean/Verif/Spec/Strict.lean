/-
What distinguishes the documents of the GraphQL grammar from the others the parser accepts, in terms of the parsed document
and of the tokens; and which construct each directive stands on.  Independent of the model of the parser.
-/
import Verif.Spec.Grammar

namespace GQL.Spec

/-- A type with no list whose item type is missing. -/
def tyProper : Ty → Prop
  | .named _ _ => True
  | .list t _ => tyProper t
  | .listNil _ => False

/-- A type that is a name, without `!`. -/
def tyPlain (t : Ty) : Prop := ∃ n, t = .named n false

mutual
/-- A value without variables. -/
def closed : Value → Prop
  | .var _ => False
  | .int _ => True
  | .float _ => True
  | .str _ => True
  | .bool _ => True
  | .null => True
  | .enum _ => True
  | .list vs => closedList vs
  | .obj fs => closedFields fs
def closedList : List Value → Prop
  | [] => True
  | v :: vs => closed v ∧ closedList vs
def closedFields : List (Bytes × Value) → Prop
  | [] => True
  | (_, v) :: fs => closed v ∧ closedFields fs
end

/-- Directives whose arguments have no variables. -/
def dirsClosed (ds : List Directive) : Prop := ∀ d ∈ ds, ∀ a ∈ d.args, closed a.value

mutual
/-- Type conditions are names. -/
def selPlain : Selection → Prop
  | .field _ _ _ _ ss => selsPlain ss
  | .spread _ _ => True
  | .inline c _ ss => (∀ t, c = some t → tyPlain t) ∧ selsPlain ss
def selsPlain : List Selection → Prop
  | [] => True
  | s :: ss => selPlain s ∧ selsPlain ss
end

def defaultClosed (d : Option Value) : Prop := ∀ v, d = some v → closed v

def varStrict (v : VarDef) : Prop := tyProper v.type ∧ defaultClosed v.default

def inputStrict (i : InputVal) : Prop := tyProper i.type ∧ defaultClosed i.default ∧ dirsClosed i.dirs

def fieldStrict (f : FieldDef) : Prop :=
  tyProper f.type ∧ (∀ a ∈ f.args, inputStrict a) ∧ dirsClosed f.dirs

def typeStrict (t : TypeDef) : Prop :=
  (∀ i ∈ t.ifaces, tyPlain i) ∧ (∀ m ∈ t.members, tyPlain m) ∧ dirsClosed t.dirs ∧
  (∀ f ∈ t.fields, fieldStrict f) ∧ (∀ v ∈ t.values, dirsClosed v.dirs) ∧ (∀ i ∈ t.inputs, inputStrict i)

def schemaStrict (s : SchemaDef) : Prop := dirsClosed s.dirs ∧ ∀ o ∈ s.ops, tyPlain o.type

/-- The definition obeys the restrictions of the grammar that can be seen in the parsed document: list types have an item type; type
conditions, interfaces, union members and root operation types are names; default values and the directives of the type
system have no variables; a type extension is not empty. -/
def bodyStrict : Body → Prop
  | .op o => (∀ v ∈ o.vars, varStrict v) ∧ selsPlain o.sels
  | .frag f => tyPlain f.cond ∧ selsPlain f.sels
  | .schema s => schemaStrict s
  | .type t => typeStrict t
  | .directive d => ∀ a ∈ d.args, inputStrict a
  | .schemaExt s => schemaStrict s
  | .typeExt t => typeStrict t ∧ TypeDef.nonEmpty t

/-- Nowhere is `(` directly followed by `)`. -/
def NoEmptyParens (ts : Toks) : Prop :=
  ∀ pre t u post, ts = pre ++ t :: u :: post →
    ¬ ((t.kind = .punctuator ∧ t.lit = b!"(") ∧ (u.kind = .punctuator ∧ u.lit = b!")"))

/-- No definition is an empty string followed by `schema`. -/
def NoSchemaDesc (pf : Bytes → Option Nat) (ts : Toks) : Prop :=
  ∀ defs r r' r'', Many (LocDefn pf true) ts defs r → Tok1 .stringValue [] r r' → ¬ Nm b!"schema" r' r''

/-- All these directives say they stand on a construct of sort `loc`. -/
def dirsAt (loc : DirLoc) (ds : List Directive) : Prop := ∀ d ∈ ds, d.loc = loc

mutual
def selAt : Selection → Prop
  | .field _ _ _ ds ss => dirsAt .field ds ∧ selsAt ss
  | .spread _ ds => dirsAt .fragmentSpread ds
  | .inline _ ds ss => dirsAt .inlineFragment ds ∧ selsAt ss
def selsAt : List Selection → Prop
  | [] => True
  | s :: ss => selAt s ∧ selsAt ss
end

def inputAt (loc : DirLoc) (i : InputVal) : Prop := dirsAt loc i.dirs

def fieldAt (f : FieldDef) : Prop := dirsAt .fieldDefinition f.dirs ∧ ∀ a ∈ f.args, inputAt .argumentDefinition a

/-- The place of directives on a type definition or extension. -/
def kindLoc : TypeKind → DirLoc
  | .scalar => .scalar | .object => .object | .interface => .interface | .union => .union
  | .enum => .enum | .inputObject => .inputObject

def typeAt (t : TypeDef) : Prop :=
  dirsAt (kindLoc t.kind) t.dirs ∧ (∀ f ∈ t.fields, fieldAt f) ∧ (∀ v ∈ t.values, dirsAt .enumValue v.dirs) ∧
  (∀ i ∈ t.inputs, inputAt .inputFieldDefinition i)

/-- Every directive in the definition carries the place where it stands. -/
def bodyAt : Body → Prop
  | .op o => dirsAt (opLoc o.kind) o.dirs ∧ selsAt o.sels
  | .frag f => dirsAt .fragmentDefinition f.dirs ∧ selsAt f.sels
  | .schema s => dirsAt .schema s.dirs
  | .type t => typeAt t
  | .directive d => ∀ a ∈ d.args, inputAt .argumentDefinition a
  | .schemaExt s => dirsAt .schema s.dirs
  | .typeExt t => typeAt t

end GQL.Spec

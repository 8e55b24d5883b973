/-
Valid query documents, after section 5 of the specification (June 2018), "Validation".  One definition for each requirement; for
requirements that the code does not check at all a necessary condition is stated where the full one would take many pages.
-/
import Verif.Spec.RuleErrors
import Verif.Spec.Schema

namespace GQL.Spec

/-- What the code checks. -/
structure SoundQuery (schema : Option Schema) (doc : Document) : Prop where
  /-- 5.1.1 There are operations and fragments only. -/
  executable : ∀ d ∈ doc.defs, (∃ o, d.body = .op o) ∨ ∃ f, d.body = .frag f
  /-- 5.2.2.1 An operation without a name is the only operation. -/
  alone : ∀ o ∈ operations doc.defs, o.name = [] → (operations doc.defs).length = 1
  /-- 5.5.1.2 (and the types of variables) Types are known. -/
  types : ∀ n ∈ typeNames doc, KnownType schema [] n
  /-- 5.8.4 Variables are used, in the operation that declares them or in a fragment it reaches. -/
  variablesUsed : ∀ d ∈ doc.defs, ∀ o, d.body = .op o → ∀ v ∈ o.vars, Used doc d v.name
  /-- 5.7.1, 5.7.2 Directives are defined, and allowed in their places. -/
  directives : ∀ d ∈ directives doc, ∃ dd, directiveDef schema [] d.name = some dd ∧ inMask d.loc dd.locs
  /-- 5.7.3 No directive is used twice in one place. -/
  directivesOnce : ∀ l ∈ directiveLists doc, (l.map (·.name)).Nodup
  /-- 5.4.2 No argument is given twice. -/
  argumentsOnce : ∀ l ∈ argumentLists doc, l.Nodup
  /-- 5.6.3 No input field is given twice. -/
  inputFieldsOnce : ∀ l ∈ inputObjects doc, l.Nodup

/-! What the code does not check. -/

/-- The fragments of the document. -/
def fragments (ds : List Definition) : List FragDef := ds.filterMap fun d => match d.body with | .frag f => some f | _ => none

/-- 5.2.1.1 Operations have different names. -/
def OperationsOnce (_ : Schema) (doc : Document) : Prop := (((operations doc.defs).map (·.name)).filter (· ≠ [])).Nodup
/-- 5.2.3.1 A subscription selects no two fields. -/
def OneSubscription (_ : Schema) (doc : Document) : Prop := ∀ o ∈ operations doc.defs, o.kind = .subscription →
  (o.sels.filter fun s => match s with | .field .. => true | _ => false).length ≤ 1
/-- The definition of the root type of a query. -/
def queryRoot (s : Schema) : Option TypeDef := s.queryType.bind fun t => s.types.lookup (tyName t)
/-- A field that is selected in a query, and its definition. -/
def Selected (s : Schema) (doc : Document) (sel : Selection) (f : FieldDef) : Prop :=
  ∃ o ∈ operations doc.defs, o.kind = .query ∧ sel ∈ o.sels ∧ ∃ alias name args dirs sels, sel = .field alias name args dirs sels ∧
    ∃ t, queryRoot s = some t ∧ f ∈ t.fields ∧ f.name = name
/-- 5.3.1 The fields selected in a query are fields of the root type. -/
def FieldsExist (s : Schema) (doc : Document) : Prop := ∀ o ∈ operations doc.defs, o.kind = .query →
  ∀ alias name args dirs sels, Selection.field alias name args dirs sels ∈ o.sels → ∃ t, queryRoot s = some t ∧ ∃ f ∈ t.fields, f.name = name
/-- The key of a field in the response. -/
def responseKey (alias name : Bytes) : Bytes := if alias = [] then name else alias
/-- 5.3.2 Fields of an operation with the same key in the response are the same. -/
def FieldsMerge (_ : Schema) (doc : Document) : Prop := ∀ o ∈ operations doc.defs, ∀ a n as ds ss a' n' as' ds' ss',
  Selection.field a n as ds ss ∈ o.sels → Selection.field a' n' as' ds' ss' ∈ o.sels → responseKey a n = responseKey a' n' → n = n'
/-- 5.3.3 A selected field of an object type has selections … -/
def ObjectsSelected (s : Schema) (doc : Document) : Prop := ∀ a n as ds ss f, Selected s doc (.field a n as ds ss) f →
  ∀ m, innerName f.type = some m → IsKind s m .object → ss ≠ []
/-- … and one of a scalar type has none. -/
def ScalarsSelected (s : Schema) (doc : Document) : Prop := ∀ a n as ds ss f, Selected s doc (.field a n as ds ss) f →
  ∀ m, innerName f.type = some m → IsKind s m .scalar → ss = []
/-- 5.4.1 Arguments are arguments of the field. -/
def ArgumentsExist (s : Schema) (doc : Document) : Prop := ∀ a n as ds ss f, Selected s doc (.field a n as ds ss) f → ∀ x ∈ as, ∃ y ∈ f.args, y.name = x.name
/-- 5.4.2.1 Required arguments are given. -/
def ArgumentsGiven (s : Schema) (doc : Document) : Prop := ∀ a n as ds ss f, Selected s doc (.field a n as ds ss) f →
  ∀ y ∈ f.args, isNonNull y.type → y.default = none → ∃ x ∈ as, x.name = y.name
/-- 5.5.1.1 Fragments have different names. -/
def FragmentsOnce (_ : Schema) (doc : Document) : Prop := ((fragments doc.defs).map (·.name)).Nodup
/-- 5.5.1.3 Fragments are on objects, interfaces and unions. -/
def FragmentsComposite (s : Schema) (doc : Document) : Prop := ∀ f ∈ fragments doc.defs,
  IsKind s (tyName f.cond) .object ∨ IsKind s (tyName f.cond) .interface ∨ IsKind s (tyName f.cond) .union
/-- 5.5.1.4 Fragments are used. -/
def FragmentsUsed (_ : Schema) (doc : Document) : Prop := ∀ f ∈ fragments doc.defs, ∃ d ∈ doc.defs, Spreads d f.name
/-- 5.5.2.1 Fragments that are spread are defined. -/
def SpreadsDefined (_ : Schema) (doc : Document) : Prop := ∀ d ∈ doc.defs, ∀ n, Spreads d n → ∃ f ∈ fragments doc.defs, f.name = n
/-- 5.5.2.2 No fragment reaches itself. -/
def NoCycles (_ : Schema) (doc : Document) : Prop := ∀ d ∈ doc.defs, ¬ Reaches doc d d
/-- 5.6.1 An argument of type ID is not given a Boolean. -/
def ValuesFit (s : Schema) (doc : Document) : Prop := ∀ a n as ds ss f, Selected s doc (.field a n as ds ss) f →
  ∀ y ∈ f.args, ∀ x ∈ as, x.name = y.name → tyName y.type = b!"ID" → ∀ b, x.value ≠ .bool b
/-- 5.8.1 The variables of an operation have different names. -/
def VariablesOnce (_ : Schema) (doc : Document) : Prop := ∀ o ∈ operations doc.defs, (o.vars.map (·.name)).Nodup
/-- 5.8.2 Variables are of input types. -/
def VariablesInput (s : Schema) (doc : Document) : Prop := ∀ o ∈ operations doc.defs, ∀ v ∈ o.vars, InputType s v.type
/-- 5.8.3 Variables that are used are declared. -/
def VariablesDeclared (_ : Schema) (doc : Document) : Prop := ∀ d ∈ doc.defs, ∀ o, d.body = .op o → ∀ x, Used doc d x → ∃ v ∈ o.vars, v.name = x
/-- 5.8.5 A variable whose type is not a non-null type, and without a default value, is not given where a non-null type is asked for. -/
def VariablesFit (s : Schema) (doc : Document) : Prop := ∀ o ∈ operations doc.defs, ∀ v ∈ o.vars, ¬ isNonNull v.type → v.default = none →
  ∀ a n as ds ss f, Selection.field a n as ds ss ∈ o.sels → Selected s doc (.field a n as ds ss) f →
  ∀ y ∈ f.args, isNonNull y.type → y.default = none → ∀ x ∈ as, x.name = y.name → x.value ≠ .var v.name

/-- The specification's requirements. -/
structure ValidQuery (s : Schema) (doc : Document) : Prop extends SoundQuery (some s) doc where
  operationsOnce : OperationsOnce s doc
  oneSubscription : OneSubscription s doc
  fieldsExist : FieldsExist s doc
  fieldsMerge : FieldsMerge s doc
  objectsSelected : ObjectsSelected s doc
  scalarsSelected : ScalarsSelected s doc
  argumentsExist : ArgumentsExist s doc
  argumentsGiven : ArgumentsGiven s doc
  fragmentsOnce : FragmentsOnce s doc
  fragmentsComposite : FragmentsComposite s doc
  fragmentsUsed : FragmentsUsed s doc
  spreadsDefined : SpreadsDefined s doc
  noCycles : NoCycles s doc
  valuesFit : ValuesFit s doc
  variablesOnce : VariablesOnce s doc
  variablesInput : VariablesInput s doc
  variablesDeclared : VariablesDeclared s doc
  variablesFit : VariablesFit s doc

end GQL.Spec

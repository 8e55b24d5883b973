/-
C30, C31, C32, C35 - C38 for query documents: the errors of each rule in `Validate`, exactly.
-/
import Verif.Proofs.Repeated

namespace GQL
open Classical

/-- `errors` is what `Validate` reports with this rule alone. -/
def QueryErrors (r : Rule) (doc : Document) (schema : Option Schema) (errors : List GErr) : Prop :=
  ∃ c : Ctx, validate doc schema (rulesWalker [r]) = .ret c ∧ c.errors.Perm errors

theorem filter_flatMap {α β : Type} (p : α → Prop) [DecidablePred p] (f : α → β) (l : List α) :
    (l.filter fun x => decide (p x)).map f = l.flatMap fun x => if p x then [f x] else [] := by
  induction l with
  | nil => rfl
  | cons a l ih =>
    rw [List.flatMap_cons, ← ih, List.filter_cons]
    by_cases h : p a <;> simp [h]

theorem zipIdx_flatMap {α β : Type} (f : α → List β) (l : List α) : ∀ n, (l.zipIdx n).flatMap (fun p => f p.1) = l.flatMap f := by
  induction l with
  | nil => intro n; rfl
  | cons a l ih => intro n; rw [List.zipIdx_cons, List.flatMap_cons, List.flatMap_cons, ih]

theorem top_rule {r : Rule} {doc : Document} {schema : Option Schema} (hr : r.sdlOnly = false) (h : ∀ c n, r.errs c (.leave n) = [])
    (hi : ∀ n, n.kind ∈ innerKinds → r.errs (queryCtx doc schema) (.enter n) = [])
    (h1 : ∀ d, r.errs (queryCtx doc schema) (.enter (.document d)) = []) (h2 : ∀ ds, r.errs (queryCtx doc schema) (.enter (.definitions ds)) = []) :
    QueryErrors r doc schema (doc.defs.zipIdx.flatMap fun p => (topNodes p.2 p.1).flatMap fun n => r.errs (queryCtx doc schema) (.enter n)) := by
  obtain ⟨c, hc, hp⟩ := validate_one doc schema r hr
  refine ⟨c, hc, hp.trans ?_⟩
  unfold Rule.errsAll
  rw [if_neg (fun x => by rw [x] at hr; cases hr), events_enters _ (h _), enters_trace, nodes_flatMap_top _ _ hi h1 h2]

/-- **C30**: one error for each type-system definition or extension, with its name, and none for operations and fragments. -/
theorem C30_query (doc : Document) (schema : Option Schema) :
    QueryErrors .executableDefinitions doc schema (Spec.nonExecutableErrors doc) := by
  have := top_rule (r := .executableDefinitions) (doc := doc) (schema := schema) rfl (fun _ _ => rfl)
    (fun n hn => by cases n <;> first | rfl | (simp only [ANode.kind] at hn; exact absurd hn (by decide))) (fun _ => rfl) (fun _ => rfl)
  obtain ⟨c, h1, h2⟩ := this
  refine ⟨c, h1, h2.trans (.of_eq ?_)⟩
  have e : ∀ p : Definition × Nat, ((topNodes p.2 p.1).flatMap fun n => Rule.errs .executableDefinitions (queryCtx doc schema) (.enter n)) =
      match Spec.definitionName p.1.body with | some n => [nonExecutableDefinitionError n] | none => [] := by
    rintro ⟨⟨loc, b⟩, i⟩
    cases b with
    | op o => obtain ⟨k, _, _, _, _⟩ := o; cases k <;> rfl
    | type t => obtain ⟨_, _, k, _, _, _, _, _, _⟩ := t; cases k <;> rfl
    | typeExt t => obtain ⟨_, _, k, _, _, _, _, _, _⟩ := t; cases k <;> rfl
    | _ => rfl
  simp only [e]
  rw [zipIdx_flatMap (fun d : Definition => match Spec.definitionName d.body with | some n => [nonExecutableDefinitionError n] | none => []),
    flatMap_filterMap (fun d : Definition => Spec.definitionName d.body) (fun n => [nonExecutableDefinitionError n]) _ (fun d => by cases Spec.definitionName d.body <;> rfl)]
  unfold Spec.nonExecutableErrors
  generalize (doc.defs.filterMap fun d => Spec.definitionName d.body) = l
  induction l with
  | nil => rfl
  | cons a l ih => rw [List.flatMap_cons, ih]; rfl

/-- The number of operations that the parser has counted is the number of operations. -/
def CountsOperations (doc : Document) : Prop := doc.operations = (Spec.operations doc.defs).length

theorem howMany_operations : ∀ ds : List Definition, Spec.howMany (fun | .op _ => true | _ => false) ds = (Spec.operations ds).length
  | [] => rfl
  | ⟨loc, b⟩ :: ds => by
    have := howMany_operations ds
    unfold Spec.howMany Spec.operations at *
    cases b <;> simp_all

theorem parsed_counts {pf : Bytes → Option Nat} {input : Bytes} {d : Document} (h : parse pf input = .ok d) : CountsOperations d := by
  unfold CountsOperations
  exact (C17_counters _ input d h).1.trans (howMany_operations d.defs)

/-- **C31**: one error for each anonymous operation if the document has more than one operation, none otherwise. -/
theorem C31_query (doc : Document) (schema : Option Schema) (h : CountsOperations doc) :
    QueryErrors .loneAnonymousOperation doc schema (Spec.anonymousErrors doc) := by
  have := top_rule (r := .loneAnonymousOperation) (doc := doc) (schema := schema) rfl (fun _ _ => rfl)
    (fun n hn => by cases n <;> first | rfl | (simp only [ANode.kind] at hn; exact absurd hn (by decide))) (fun _ => rfl) (fun _ => rfl)
  obtain ⟨c, h1, h2⟩ := this
  refine ⟨c, h1, h2.trans (.of_eq ?_)⟩
  let f : OpDef → List GErr := fun o => if o.name = [] ∧ doc.operations > 1 then [anonOperationNotAloneError] else []
  let g : Definition → Option OpDef := fun d => match d.body with | .op t => some t | _ => none
  have e : ∀ p : Definition × Nat, ((topNodes p.2 p.1).flatMap fun n => Rule.errs .loneAnonymousOperation (queryCtx doc schema) (.enter n)) =
      match g p.1 with | some o => f o | none => [] := by
    rintro ⟨⟨loc, b⟩, i⟩
    cases b with
    | op o => obtain ⟨k, _, _, _, _⟩ := o; cases k <;> simp [topNodes, opKindNode, Rule.errs, loneAnonErrs, queryCtx_doc, f, g]
    | type t => obtain ⟨_, _, k, _, _, _, _, _, _⟩ := t; cases k <;> rfl
    | typeExt t => obtain ⟨_, _, k, _, _, _, _, _, _⟩ := t; cases k <;> rfl
    | _ => rfl
  simp only [e]
  rw [zipIdx_flatMap (fun d : Definition => match g d with | some o => f o | none => []),
    flatMap_filterMap g f _ (fun d => by cases g d <;> rfl)]
  show (Spec.operations doc.defs).flatMap f = _
  unfold Spec.anonymousErrors
  split
  · rename_i hl
    rw [filter_flatMap (fun o : OpDef => o.name = [])]
    congr 1; funext o
    simp [f, show doc.operations = _ from h, hl, says_notAlone]
  · rename_i hl
    rw [List.flatMap_eq_nil_iff]
    intro o _
    simp [f, show doc.operations = _ from h, hl]

/-- **C32**: one error for each reference to a type that is neither in the schema nor built in. -/
theorem C32_query (doc : Document) (schema : Option Schema) :
    QueryErrors .knownTypeNames doc schema (Spec.unknownTypeErrors schema [] doc) := by
  have := query_rule .knownTypeNames rfl (fun _ _ => rfl) doc schema
    (fun n => match n with | .namedType t => some (Spec.tyName t) | _ => none)
    (fun m => if ¬ Spec.KnownType schema [] m then [unknownTypeError m] else [])
    (fun n => by
      cases n <;> try rfl
      rename_i t
      have : Spec.tyName t = t.namedType := by cases t <;> rfl
      simp only [Rule.errs, knownTypeErrs, this]
      have hk := known_query doc schema t.namedType
      by_cases h : typeNameKnown (queryCtx doc schema) t.namedType = true
      · simp [h, hk.1 h]
      · simp [h, show ¬ Spec.KnownType schema [] t.namedType from fun x => h (hk.2 x)])
  obtain ⟨c, h1, h2⟩ := this
  refine ⟨c, h1, h2.trans (.of_eq ?_)⟩
  unfold Spec.unknownTypeErrors
  rw [filter_flatMap (fun n => ¬ Spec.KnownType schema [] n)]
  rfl

/-- **C35**: one error for each directive that is not defined (in the schema or built in) or not allowed where it stands. -/
theorem C35_query (doc : Document) (schema : Option Schema) :
    QueryErrors .knownDirectives doc schema (Spec.directiveErrors schema [] doc) := by
  refine query_rule .knownDirectives rfl (fun _ _ => rfl) doc schema
    (fun n => match n with | .directive t => some t | _ => none) _
    (fun n => ?_)
  cases n <;> try rfl
  rename_i d
  simp only [Rule.errs, knownDirErrs, directive_query]
  cases Spec.directiveDef schema [] d.name with
  | none => rfl
  | some dd => simp only [mask_zero]; by_cases h : Spec.inMask d.loc dd.locs <;> simp [h, says_misplacedDirective]

theorem repeats_errors {α : Type} (l : List α) (f : α → List Bytes) (err : Bytes → GErr) :
    (l.flatMap fun x => (repeats [] (f x)).map err).Perm (l.flatMap fun x => (Spec.repeated (f x)).map err) :=
  flatMap_perm fun x _ => (repeats_perm (f x)).map err

/-- **C36**: for each place with directives, a directive that occurs there `k` times is reported `k - 1` times. -/
theorem C36_query (doc : Document) (schema : Option Schema) :
    QueryErrors .uniqueDirectivesPerLocation doc schema (Spec.repeatedDirectiveErrors doc) := by
  obtain ⟨c, h1, h2⟩ := query_rule .uniqueDirectivesPerLocation rfl (fun _ _ => rfl) doc schema
    (fun n => match n with | .directives ds => some ds | _ => none) (fun l => (repeats [] (l.map (·.name))).map duplicateDirectiveError)
    (fun n => by cases n <;> rfl)
  exact ⟨c, h1, h2.trans (repeats_errors _ _ _)⟩

/-- **C37**: for each list of arguments, a name that occurs `k` times is reported `k - 1` times. -/
theorem C37_query (doc : Document) (schema : Option Schema) :
    QueryErrors .uniqueArgumentNames doc schema (Spec.repeatedArgumentErrors doc) := by
  obtain ⟨c, h1, h2⟩ := query_rule .uniqueArgumentNames rfl (fun _ _ => rfl) doc schema
    (fun n => match n with
      | .fieldSelection (.field _ _ args _ _) => some (args.map (·.name))
      | .directive d => some (d.args.map (·.name))
      | .fieldDefinition d => some (d.args.map (·.name))
      | .directiveDefinition d => some (d.args.map (·.name))
      | _ => none) (fun l => (repeats [] l).map duplicateArgError)
    (fun n => by
      cases n <;> try rfl
      rename_i s; cases s <;> rfl)
  exact ⟨c, h1, h2.trans (repeats_errors _ _ _)⟩

/-- **C38**: for each object value, a field name that occurs `k` times is reported `k - 1` times. -/
theorem C38_query (doc : Document) (schema : Option Schema) :
    QueryErrors .uniqueInputFieldNames doc schema (Spec.repeatedInputFieldErrors doc) := by
  obtain ⟨c, h1, h2⟩ := query_rule .uniqueInputFieldNames rfl (fun _ _ => rfl) doc schema
    (fun n => match n with | .objectValue (.obj fs) => some (fs.map (·.1)) | _ => none) (fun l => (repeats [] l).map duplicateInputFieldError)
    (fun n => by
      cases n <;> try rfl
      rename_i s; cases s <;> rfl)
  exact ⟨c, h1, h2.trans (repeats_errors _ _ _)⟩

end GQL

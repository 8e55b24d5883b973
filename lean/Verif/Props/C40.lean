/-
C40, C42, C43 and C32, C35 - C38 for SDL documents: the errors of `ValidateSDL`, exactly; C41 and C44 exactly and in part.
-/
import Verif.Props.C39

namespace GQL
open Classical

/-- `errors` is what the rule adds, in `ValidateSDL`, to the errors that are there without any rule. -/
def SDLErrors (r : Rule) (doc : Document) (schema : Option Schema) (errors : List GErr) : Prop :=
  ∃ (c c0 : Ctx) (X : List GErr), validateSDL doc schema (rulesWalker [r]) = .ret c ∧ validateSDL doc schema (rulesWalker []) = .ret c0 ∧
    c.errors = X ++ c0.errors ∧ X.Perm errors

theorem on_nil (e : Event) (o : Out Ctx) : Walker.on ([] : Walker (Out Ctx)) e o = o := by
  cases e <;> rfl

theorem validateSDL_nil (doc : Document) (schema : Option Schema) :
    validateSDL doc schema (rulesWalker []) = .ret (newSDLContext doc schema) := by
  unfold validateSDL Walker.walk
  generalize newSDLContext doc schema = c
  dsimp only
  generalize walkDocument c.doc = es
  induction es with
  | nil => rfl
  | cons e es ih => rw [List.foldl_cons]; rw [show Walker.on (rulesWalker []) e (Out.ret c) = Out.ret c from on_nil e _]; exact ih

theorem sdl_errors {β : Type} (r : Rule) (hr : r ≠ .uniqueOperationTypes) (h : ∀ c n, r.errs c (.leave n) = []) (doc : Document) (schema : Option Schema)
    (g : ANode → Option β) (hg : ∀ n, n.kind ∈ opNodeKinds → g n = none) (f : β → List GErr)
    (e : ∀ n, r.errs (newSDLContext doc schema) (.enter n) = match g n with | some y => f y | none => []) :
    SDLErrors r doc schema (((Spec.nodes doc).filterMap g).flatMap f) := by
  obtain ⟨c, X, h1, h2, h3⟩ := sdl_rule r hr h doc schema g hg f e
  exact ⟨c, _, X, h1, validateSDL_nil doc schema, h2, h3⟩

theorem SDLErrors.perm {r : Rule} {doc : Document} {schema : Option Schema} {a b : List GErr} (h : SDLErrors r doc schema a) (hp : a.Perm b) :
    SDLErrors r doc schema b := by
  obtain ⟨c, c0, X, h1, h2, h3, h4⟩ := h
  exact ⟨c, c0, X, h1, h2, h3, h4.trans hp⟩

section
variable (doc : Document) (schema : Option Schema)

theorem nameErrs_spec {β : Type} (m : GMap β) (e d : Bytes → GErr) (ns : List Bytes) :
    (nameErrs m e d [] ns).Perm (Spec.definitionErrors m ns e d) := by
  unfold nameErrs Spec.definitionErrors
  refine List.Perm.append (.of_eq ?_) ?_
  · congr 1
  · refine ((repeats_perm _).map _).trans (.of_eq ?_)
    congr 2
    refine List.filter_congr fun n _ => ?_
    unfold inSchema
    cases (List.lookup n m).isSome <;> simp

/-- **C40**: the errors about types, directives and schemas defined more than once (or also in the schema that is extended), for every document and
schema, and the definitions that the rest of the code uses: the first one of each name. -/
theorem C40_sdl : ∃ (c : Ctx) (s : SDLContext), validateSDL doc schema (rulesWalker []) = .ret c ∧ c.errors.Perm (Spec.uniquenessErrors schema doc) ∧
    c.sdl = some s ∧
    (∀ n, s.types.lookup n = if ((Spec.schemaTypes schema).lookup n).isSome then none else (Spec.typeDefs doc.defs).find? fun t => t.name == n) ∧
    (∀ n, s.directives.lookup n =
      if ((Spec.schemaDirectives schema).lookup n).isSome then none else (Spec.directiveDefs doc.defs).find? fun t => t.name == n) ∧
    s.schemaDef = if schema.isSome then none else (Spec.schemaDefs doc.defs).head? := by
  refine ⟨_, _, validateSDL_nil doc schema, ?_, sdlCtx_sdl doc schema, fun n => ?_, fun n => ?_, sdlOf_schemaDef doc schema⟩
  · refine (sdlCtx_errors doc schema).trans ?_
    unfold Spec.uniquenessErrors
    rw [schemaTypes_eq, schemaDirectives_eq]
    refine ((nameErrs_spec _ _ _ _).append (nameErrs_spec _ _ _ _)).append (.of_eq ?_)
    unfold schemaErrs
    rw [says_repeatedSchema, says_schemaInExtension]
    cases schema <;> simp
  · rw [sdlOf_types, schemaTypes_eq]
  · rw [sdlOf_dirs, schemaDirectives_eq]

/-- **C32 in SDL documents**. -/
theorem C32_sdl : SDLErrors .knownTypeNames doc schema (Spec.unknownTypeErrors schema (Spec.typeDefs doc.defs) doc) := by
  refine (sdl_errors .knownTypeNames (by decide) (fun _ _ => rfl) doc schema
    (fun n => match n with | .namedType t => some (Spec.tyName t) | _ => none)
    (fun n hn => by cases n <;> first | rfl | (simp only [ANode.kind] at hn; exact absurd hn (by decide)))
    (fun m => if ¬ Spec.KnownType schema (Spec.typeDefs doc.defs) m then [unknownTypeError m] else [])
    (fun n => ?_)).perm (.of_eq ?_)
  · cases n <;> try rfl
    rename_i t
    have : Spec.tyName t = t.namedType := by cases t <;> rfl
    simp only [Rule.errs, knownTypeErrs, this]
    have hk := known_sdl doc schema t.namedType
    by_cases h : typeNameKnown (newSDLContext doc schema) t.namedType = true
    · simp [h, hk.1 h]
    · simp [h, show ¬ Spec.KnownType schema (Spec.typeDefs doc.defs) t.namedType from fun x => h (hk.2 x)]
  · unfold Spec.unknownTypeErrors
    rw [filter_flatMap (fun n => ¬ Spec.KnownType schema (Spec.typeDefs doc.defs) n)]
    rfl

/-- **C35 in SDL documents**. -/
theorem C35_sdl : SDLErrors .knownDirectives doc schema (Spec.directiveErrors schema (Spec.directiveDefs doc.defs) doc) := by
  refine sdl_errors .knownDirectives (by decide) (fun _ _ => rfl) doc schema
    (fun n => match n with | .directive t => some t | _ => none)
    (fun n hn => by cases n <;> first | rfl | (simp only [ANode.kind] at hn; exact absurd hn (by decide))) _ (fun n => ?_)
  cases n <;> try rfl
  rename_i d
  simp only [Rule.errs, knownDirErrs, directive_sdl]
  cases Spec.directiveDef schema (Spec.directiveDefs doc.defs) d.name with
  | none => rfl
  | some dd => simp only [mask_zero]; by_cases h : Spec.inMask d.loc dd.locs <;> simp [h, says_misplacedDirective]

/-- **C36 in SDL documents**. -/
theorem C36_sdl : SDLErrors .uniqueDirectivesPerLocation doc schema (Spec.repeatedDirectiveErrors doc) :=
  (sdl_errors .uniqueDirectivesPerLocation (by decide) (fun _ _ => rfl) doc schema
    (fun n => match n with | .directives ds => some ds | _ => none)
    (fun n hn => by cases n <;> first | rfl | (simp only [ANode.kind] at hn; exact absurd hn (by decide)))
    (fun l => (repeats [] (l.map (·.name))).map duplicateDirectiveError) (fun n => by cases n <;> rfl)).perm (repeats_errors _ _ _)

/-- **C37 in SDL documents**. -/
theorem C37_sdl : SDLErrors .uniqueArgumentNames doc schema (Spec.repeatedArgumentErrors doc) :=
  (sdl_errors .uniqueArgumentNames (by decide) (fun _ _ => rfl) doc schema
    (fun n => match n with
      | .fieldSelection (.field _ _ args _ _) => some (args.map (·.name))
      | .directive d => some (d.args.map (·.name))
      | .fieldDefinition d => some (d.args.map (·.name))
      | .directiveDefinition d => some (d.args.map (·.name))
      | _ => none)
    (fun n hn => by cases n <;> first | rfl | (simp only [ANode.kind] at hn; exact absurd hn (by decide)))
    (fun l => (repeats [] l).map duplicateArgError)
    (fun n => by
      cases n <;> try rfl
      rename_i s; cases s <;> rfl)).perm (repeats_errors _ _ _)

/-- **C38 in SDL documents**. -/
theorem C38_sdl : SDLErrors .uniqueInputFieldNames doc schema (Spec.repeatedInputFieldErrors doc) :=
  (sdl_errors .uniqueInputFieldNames (by decide) (fun _ _ => rfl) doc schema
    (fun n => match n with | .objectValue (.obj fs) => some (fs.map (·.1)) | _ => none)
    (fun n hn => by cases n <;> first | rfl | (simp only [ANode.kind] at hn; exact absurd hn (by decide)))
    (fun l => (repeats [] l).map duplicateInputFieldError)
    (fun n => by
      cases n <;> try rfl
      rename_i s; cases s <;> rfl)).perm (repeats_errors _ _ _)

/-! ### C41 -/

theorem argDirective_sdl (n : Bytes) :
    argDirectiveDefinition (newSDLContext doc schema) n = Spec.directiveDef schema (Spec.directiveDefs doc.defs) n := by
  unfold argDirectiveDefinition Ctx.directiveDefinition Spec.directiveDef
  rw [sdlCtx_sdl, sdlCtx_schema, schemaDirectives_eq]
  dsimp only
  rw [sdlOf_dirs, sdlOf_extending, schemaDirectives_eq]
  cases schema with
  | none =>
    simp only [Spec.schemaDirectives, Option.isSome_none, Bool.false_eq_true, ↓reduceIte, List.lookup_nil]
    cases List.find? (fun t => t.name == n) (Spec.directiveDefs doc.defs) <;> rfl
  | some s =>
    simp only [Option.isSome_some, ↓reduceIte]
    cases h : List.lookup n (Spec.schemaDirectives (some s)) with
    | some d => rfl
    | none => rfl

/-- The arguments of a directive that `ValidateSDL` reports as unknown: the first one if the definition does not have it, and all others, whether the
definition has them or not. -/
noncomputable def Spec.reportedArguments (dd : DirDef) : List Argument → List Argument
  | [] => []
  | a :: as => (if ∃ v ∈ dd.args, v.name = a.name then [] else [a]) ++ as

/-- **C41, exactly**. -/
theorem C41_exact : SDLErrors .knownArgumentNamesOnDirectives doc schema
    ((Spec.directives doc).flatMap fun d => match Spec.directiveDef schema (Spec.directiveDefs doc.defs) d.name with
      | none => []
      | some dd => (Spec.reportedArguments dd d.args).map fun a => unknownDirectiveArgError a.name d.name) := by
  refine sdl_errors .knownArgumentNamesOnDirectives (by decide) (fun _ _ => rfl) doc schema
    (fun n => match n with | .directive t => some t | _ => none)
    (fun n hn => by cases n <;> first | rfl | (simp only [ANode.kind] at hn; exact absurd hn (by decide))) _ (fun n => ?_)
  cases n <;> try rfl
  rename_i d
  simp only [Rule.errs, knownArgErrs, argDirective_sdl]
  cases Spec.directiveDef schema (Spec.directiveDefs doc.defs) d.name with
  | none => rfl
  | some dd =>
    dsimp only
    congr 1
    cases d.args with
    | nil => rfl
    | cons a as =>
      simp only [badArgs, Spec.reportedArguments]
      congr 1
      have : (dd.args.any fun v => a.name == v.name) = true ↔ ∃ v ∈ dd.args, v.name = a.name := by
        simp only [List.any_eq_true, beq_iff_eq]
        exact ⟨fun ⟨v, h1, h2⟩ => ⟨v, h1, h2.symm⟩, fun ⟨v, h1, h2⟩ => ⟨v, h1, h2.symm⟩⟩
      by_cases h : ∃ v ∈ dd.args, v.name = a.name
      · rw [if_pos h, if_pos (this.2 h)]
      · rw [if_neg h, if_neg (fun x => h (this.1 x))]

/-- **C41 for directives with at most one argument**.  Missing for the full property: directives with more arguments (`C41_refuted`). -/
theorem C41_partial (h : ∀ d ∈ Spec.directives doc, d.args.length ≤ 1) :
    SDLErrors .knownArgumentNamesOnDirectives doc schema (Spec.unknownArgumentErrors schema (Spec.directiveDefs doc.defs) doc) := by
  refine (C41_exact doc schema).perm (.of_eq ?_)
  unfold Spec.unknownArgumentErrors
  rw [List.flatMap_def, List.flatMap_def]
  congr 1
  refine List.map_congr_left fun d hd => ?_
  have hl := h d hd
  cases Spec.directiveDef schema (Spec.directiveDefs doc.defs) d.name with
  | none => rfl
  | some dd =>
    dsimp only
    congr 1
    match hd' : d.args with
    | [] => rfl
    | [a] =>
      simp only [Spec.reportedArguments, List.append_nil, List.filter_cons, List.filter_nil]
      by_cases hx : ∃ v ∈ dd.args, v.name = a.name <;> simp [hx]
    | a :: b :: as => rw [hd'] at hl; simp at hl

/-! ### C42, C43 -/

/-- **C42**: one error for each argument that a directive's definition requires and the directive does not have. -/
theorem C42_sdl : SDLErrors .providedRequiredArgumentsOnDirectives doc schema
    (Spec.missingArgumentErrors schema (Spec.directiveDefs doc.defs) doc) := by
  refine sdl_errors .providedRequiredArgumentsOnDirectives (by decide) (fun _ _ => rfl) doc schema
    (fun n => match n with | .directive t => some t | _ => none)
    (fun n hn => by cases n <;> first | rfl | (simp only [ANode.kind] at hn; exact absurd hn (by decide))) _ (fun n => ?_)
  cases n <;> try rfl
  rename_i d
  simp only [Rule.errs, requiredErrs, directive_sdl]
  cases Spec.directiveDef schema (Spec.directiveDefs doc.defs) d.name with
  | none => rfl
  | some dd =>
    simp only [says_missingArgument]
    congr 1
    refine List.filter_congr fun v _ => ?_
    have e : v.type.nonNull = Spec.isNonNull v.type := by cases v.type <;> rfl
    have e2 : (d.args.any fun a => a.name == v.name) = decide (∃ a ∈ d.args, a.name = v.name) := by
      rw [Bool.eq_iff_iff]; simp
    rw [Bool.eq_iff_iff]
    simp only [InputVal.required, e, e2, Bool.and_eq_true, Bool.not_eq_true', decide_eq_false_iff_not, decide_eq_true_eq]
    exact ⟨fun ⟨⟨a, b⟩, c⟩ => ⟨b, a, c⟩, fun ⟨a, b, c⟩ => ⟨⟨b, a⟩, c⟩⟩

theorem extType_sdl (n : Bytes) :
    extTypeDefinition (newSDLContext doc schema) n = Spec.extendedType schema (Spec.typeDefs doc.defs) n := by
  unfold extTypeDefinition Ctx.typeDefinition Spec.extendedType
  rw [sdlCtx_sdl, sdlCtx_schema, schemaTypes_eq]
  dsimp only
  rw [sdlOf_types, sdlOf_extending, schemaTypes_eq]
  cases schema with
  | none => simp [Spec.schemaTypes]
  | some s =>
    simp only [Option.isSome_some, ↓reduceIte]
    cases h : List.lookup n (Spec.schemaTypes (some s)) with
    | some d => rfl
    | none => rfl

theorem typeExt_nodes : ((Spec.nodes doc).filterMap fun n => match n with | .typeExtension t => some t | _ => none) = Spec.typeExts doc.defs := by
  let g : ANode → Option TypeDef := fun n => match n with | .typeExtension t => some t | _ => none
  have h1 := nodes_flatMap_top true (fun n => (g n).toList)
    (fun n hn => by cases n <;> first | rfl | (simp only [ANode.kind] at hn; exact absurd hn (by decide))) (fun _ => rfl) (fun _ => rfl) doc
  have h2 : ∀ l : List ANode, l.filterMap g = l.flatMap fun n => (g n).toList := by
    intro l
    induction l with
    | nil => rfl
    | cons a l ih => rw [List.filterMap_cons, List.flatMap_cons, ← ih]; cases g a <;> rfl
  refine (h2 _).trans (h1.trans ?_)
  have h3 : ∀ p : Definition × Nat, ((topNodes p.2 p.1).flatMap fun n => (g n).toList) = (match p.1.body with | .typeExt t => some t | _ => none).toList := by
    rintro ⟨⟨loc, b⟩, i⟩
    cases b with
    | op o => obtain ⟨k, _, _, _, _⟩ := o; cases k <;> rfl
    | type t => obtain ⟨_, _, k, _, _, _, _, _, _⟩ := t; cases k <;> rfl
    | typeExt t => obtain ⟨_, _, k, _, _, _, _, _, _⟩ := t; cases k <;> rfl
    | _ => rfl
  simp only [h3]
  rw [zipIdx_flatMap (fun d : Definition => (match d.body with | .typeExt t => some t | _ => none : Option TypeDef).toList)]
  unfold Spec.typeExts
  induction doc.defs with
  | nil => rfl
  | cons d ds ih => rw [List.flatMap_cons, List.filterMap_cons, ih]; obtain ⟨_, b⟩ := d; cases b <;> rfl

/-- **C43**: one error for each extension of a type that is neither in the schema nor in the document, or is of another kind. -/
theorem C43_sdl : SDLErrors .possibleTypeExtensions doc schema (Spec.extensionErrors schema doc) := by
  refine (sdl_errors .possibleTypeExtensions (by decide) (fun _ _ => rfl) doc schema
    (fun n => match n with | .typeExtension t => some t | _ => none)
    (fun n hn => by cases n <;> first | rfl | (simp only [ANode.kind] at hn; exact absurd hn (by decide)))
    (fun e => match Spec.extendedType schema (Spec.typeDefs doc.defs) e.name with
      | none => [extendingUnknownTypeError e.name]
      | some t => if e.kind = t.kind then [] else [extendingDifferentTypeKindError e.name t.kind.str]) (fun n => ?_)).perm (.of_eq ?_)
  · cases n <;> try rfl
    rename_i d
    simp only [Rule.errs, typeExtErrs, extType_sdl]
    cases Spec.extendedType schema (Spec.typeDefs doc.defs) d.name with
    | none => rfl
    | some t => by_cases h : d.kind = t.kind <;> simp [h]
  · rw [typeExt_nodes]; rfl

/-! ### C44 -/

/-- The names `ValidateSDL` reports: an underscore as first or second byte (of at least two). -/
def Spec.UnderscoreEarly (n : Bytes) : Prop := 2 ≤ n.length ∧ (n[0]? = some 95 ∨ n[1]? = some 95)

/-- The name begins with two underscores. -/
def Spec.TwoUnderscores (n : Bytes) : Prop := b!"__" <+: n

theorem isValidName_iff (n : Bytes) : isValidName n = true ↔ ¬ Spec.UnderscoreEarly n := by
  unfold Spec.UnderscoreEarly
  match n with
  | [] => simp [isValidName]
  | [a] => simp [isValidName]
  | a :: b :: r => simp [isValidName, not_or]

/-- **C44, exactly**: the names (of types, fields, arguments, input fields and directives) reported are those with an underscore in first or second
place. -/
theorem C44_exact : SDLErrors .possibleNames doc schema
    (((Spec.definedNames doc).filter fun n => Spec.UnderscoreEarly n).map Spec.Says.twoUnderscores) := by
  refine (sdl_errors .possibleNames (by decide) (fun _ _ => rfl) doc schema
    (fun n => match n with
      | .typeDefinition t => some t.name
      | .fieldDefinition f => some f.name
      | .inputValueDefinition v => some v.name
      | .directiveDefinition d => some d.name
      | _ => none)
    (fun n hn => by cases n <;> first | rfl | (simp only [ANode.kind] at hn; exact absurd hn (by decide)))
    nameErr (fun n => by cases n <;> rfl)).perm (.of_eq ?_)
  rw [filter_flatMap (fun n => Spec.UnderscoreEarly n)]
  show (Spec.definedNames doc).flatMap nameErr = _
  congr 1
  funext n
  unfold nameErr
  by_cases h : Spec.UnderscoreEarly n
  · rw [if_pos h, if_neg (fun x => (isValidName_iff n).1 x h), says_twoUnderscores]
  · rw [if_neg h, if_pos ((isValidName_iff n).2 h)]

/-- **C44 for documents in which no name has an underscore in only one of the first two places**.  Missing for the full property: names such as `_id` and
`a_b` (`C44_refuted`). -/
theorem C44_partial (h : ∀ n ∈ Spec.definedNames doc, 2 ≤ n.length → (n[0]? = some 95 ↔ n[1]? = some 95)) :
    SDLErrors .possibleNames doc schema
      (((Spec.definedNames doc).filter fun n => Spec.TwoUnderscores n).map Spec.Says.twoUnderscores) := by
  refine (C44_exact doc schema).perm (.of_eq ?_)
  congr 1
  refine List.filter_congr fun n hn => ?_
  have := h n hn
  rw [Bool.eq_iff_iff, decide_eq_true_eq, decide_eq_true_eq]
  unfold Spec.UnderscoreEarly Spec.TwoUnderscores
  match n with
  | [] => simp
  | [a] => simp
  | a :: b :: r =>
    simp at this ⊢
    constructor
    · rintro (h | h)
      · exact ⟨h.symm, (this.1 h).symm⟩
      · exact ⟨(this.2 h).symm, h.symm⟩
    · rintro ⟨h, _⟩; exact .inl h.symm

end

set_option maxRecDepth 4000 in
/-- C41 as stated fails: the definition has the argument `b`, and `b` is reported. -/
theorem C41_refuted : ∃ d, parse (fun _ => none) b!"directive @d(a: Int, b: Int) on OBJECT type T @d(a: 1, b: 2) { x: Int }" = .ok d ∧
    (validateSDL d none (rulesWalker [.knownArgumentNamesOnDirectives])).errors? = some [unknownDirectiveArgError b!"b" b!"d"] ∧
    Spec.unknownArgumentErrors none (Spec.directiveDefs d.defs) d = [] := by
  refine ⟨_, (parse_eq (ts := [⟨.name, b!"directive", 1, 1⟩, ⟨.punctuator, b!"@", 1, 11⟩, ⟨.name, b!"d", 1, 12⟩, ⟨.punctuator, b!"(", 1, 13⟩, ⟨.name, b!"a", 1, 14⟩, ⟨.punctuator, b!":", 1, 15⟩, ⟨.name, b!"Int", 1, 17⟩, ⟨.name, b!"b", 1, 22⟩, ⟨.punctuator, b!":", 1, 23⟩, ⟨.name, b!"Int", 1, 25⟩, ⟨.punctuator, b!")", 1, 28⟩, ⟨.name, b!"on", 1, 30⟩, ⟨.name, b!"OBJECT", 1, 33⟩, ⟨.name, b!"type", 1, 40⟩, ⟨.name, b!"T", 1, 45⟩, ⟨.punctuator, b!"@", 1, 47⟩, ⟨.name, b!"d", 1, 48⟩, ⟨.punctuator, b!"(", 1, 49⟩, ⟨.name, b!"a", 1, 50⟩, ⟨.punctuator, b!":", 1, 51⟩, ⟨.intValue, b!"1", 1, 53⟩, ⟨.name, b!"b", 1, 56⟩, ⟨.punctuator, b!":", 1, 57⟩, ⟨.intValue, b!"2", 1, 59⟩, ⟨.punctuator, b!")", 1, 60⟩, ⟨.punctuator, b!"{", 1, 62⟩, ⟨.name, b!"x", 1, 64⟩, ⟨.punctuator, b!":", 1, 65⟩, ⟨.name, b!"Int", 1, 67⟩, ⟨.punctuator, b!"}", 1, 71⟩, ⟨.eof, [], 1, 72⟩]) (by decide) rfl), rfl, ?_⟩
  refine List.flatMap_eq_nil_iff.2 fun x hx => ?_
  cases hx with
  | tail _ hx => cases hx
  | head =>
    refine List.map_eq_nil_iff.2 (List.filter_eq_nil_iff.2 fun a ha => ?_)
    rw [decide_eq_true_eq, Classical.not_not]
    cases ha with
    | head => exact ⟨_, .head _, rfl⟩
    | tail _ ha => cases ha with
      | head => exact ⟨_, .tail _ (.head _), rfl⟩
      | tail _ ha => cases ha

set_option maxRecDepth 4000 in
/-- `C41_partial` applies: one argument, unknown. -/
example : ∃ d, parse (fun _ => none) b!"directive @d(a: Int) on OBJECT type T @d(c: 1) { x: Int }" = .ok d ∧
    (∀ x ∈ Spec.directives d, x.args.length ≤ 1) ∧
    (validateSDL d none (rulesWalker [.knownArgumentNamesOnDirectives])).errors? = some [unknownDirectiveArgError b!"c" b!"d"] := by
  refine ⟨_, (parse_eq (ts := [⟨.name, b!"directive", 1, 1⟩, ⟨.punctuator, b!"@", 1, 11⟩, ⟨.name, b!"d", 1, 12⟩, ⟨.punctuator, b!"(", 1, 13⟩, ⟨.name, b!"a", 1, 14⟩, ⟨.punctuator, b!":", 1, 15⟩, ⟨.name, b!"Int", 1, 17⟩, ⟨.punctuator, b!")", 1, 20⟩, ⟨.name, b!"on", 1, 22⟩, ⟨.name, b!"OBJECT", 1, 25⟩, ⟨.name, b!"type", 1, 32⟩, ⟨.name, b!"T", 1, 37⟩, ⟨.punctuator, b!"@", 1, 39⟩, ⟨.name, b!"d", 1, 40⟩, ⟨.punctuator, b!"(", 1, 41⟩, ⟨.name, b!"c", 1, 42⟩, ⟨.punctuator, b!":", 1, 43⟩, ⟨.intValue, b!"1", 1, 45⟩, ⟨.punctuator, b!")", 1, 46⟩, ⟨.punctuator, b!"{", 1, 48⟩, ⟨.name, b!"x", 1, 50⟩, ⟨.punctuator, b!":", 1, 51⟩, ⟨.name, b!"Int", 1, 53⟩, ⟨.punctuator, b!"}", 1, 57⟩, ⟨.eof, [], 1, 58⟩]) (by decide) rfl), ?_, rfl⟩
  intro x hx
  cases hx with
  | head => decide
  | tail _ hx => cases hx

/-- C44 as stated fails: neither name begins with two underscores, and both are reported. -/
theorem C44_refuted : ∃ d, parse (fun _ => none) b!"type T { _id: Int, a_b: Int }" = .ok d ∧
    (validateSDL d none (rulesWalker [.possibleNames])).errors? =
      some [nameStartsWithTwoUnderscoresError b!"a_b", nameStartsWithTwoUnderscoresError b!"_id"] ∧
    ∀ n ∈ Spec.definedNames d, ¬ Spec.TwoUnderscores n := by
  refine ⟨_, (parse_eq (ts := [⟨.name, b!"type", 1, 1⟩, ⟨.name, b!"T", 1, 6⟩, ⟨.punctuator, b!"{", 1, 8⟩, ⟨.name, b!"_id", 1, 10⟩, ⟨.punctuator, b!":", 1, 13⟩, ⟨.name, b!"Int", 1, 15⟩, ⟨.name, b!"a_b", 1, 20⟩, ⟨.punctuator, b!":", 1, 23⟩, ⟨.name, b!"Int", 1, 25⟩, ⟨.punctuator, b!"}", 1, 29⟩, ⟨.eof, [], 1, 30⟩]) (by decide) rfl), rfl, ?_⟩
  intro n hn
  unfold Spec.TwoUnderscores
  cases hn with
  | head => decide
  | tail _ hn => cases hn with
    | head => decide
    | tail _ hn => cases hn with
      | head => decide
      | tail _ hn => cases hn

/-- `C44_partial` applies. -/
example : ∃ d, parse (fun _ => none) b!"type T { __id: Int, ab_: Int }" = .ok d ∧
    (∀ n ∈ Spec.definedNames d, 2 ≤ n.length → (n[0]? = some 95 ↔ n[1]? = some 95)) ∧
    (validateSDL d none (rulesWalker [.possibleNames])).errors? = some [nameStartsWithTwoUnderscoresError b!"__id"] := by
  refine ⟨_, (parse_eq (ts := [⟨.name, b!"type", 1, 1⟩, ⟨.name, b!"T", 1, 6⟩, ⟨.punctuator, b!"{", 1, 8⟩, ⟨.name, b!"__id", 1, 10⟩, ⟨.punctuator, b!":", 1, 14⟩, ⟨.name, b!"Int", 1, 16⟩, ⟨.name, b!"ab_", 1, 21⟩, ⟨.punctuator, b!":", 1, 24⟩, ⟨.name, b!"Int", 1, 26⟩, ⟨.punctuator, b!"}", 1, 30⟩, ⟨.eof, [], 1, 31⟩]) (by decide) rfl), ?_, rfl⟩
  intro n hn
  cases hn with
  | head => decide
  | tail _ hn => cases hn with
    | head => decide
    | tail _ hn => cases hn with
      | head => decide
      | tail _ hn => cases hn

set_option maxRecDepth 8000 in
/-- A document that breaks most of the rules; the error found last is the first of the list. -/
example : ∃ d, parse (fun _ => none)
      b!"type A { x(a: Int, a: Int): U @deprecated @deprecated } type A { y: Int } directive @q(r: Int!) on ENUM extend enum A { V @q @z } extend type B { z: Int }" = .ok d ∧
    (validateSDL d none (rulesWalker specifiedSDL)).errors? = some [
      extendingUnknownTypeError b!"B",
      unknownDirectiveError b!"z",
      missingDirectiveArgError b!"q" b!"r" b!"Int!",
      misplacedDirectiveError b!"q" .enumValue,
      extendingDifferentTypeKindError b!"A" b!"object",
      duplicateDirectiveError b!"deprecated",
      unknownTypeError b!"U",
      duplicateArgError b!"a",
      duplicateTypeNameError b!"A"] :=
  ⟨_, (parse_eq (ts := [⟨.name, b!"type", 1, 1⟩, ⟨.name, b!"A", 1, 6⟩, ⟨.punctuator, b!"{", 1, 8⟩, ⟨.name, b!"x", 1, 10⟩, ⟨.punctuator, b!"(", 1, 11⟩, ⟨.name, b!"a", 1, 12⟩, ⟨.punctuator, b!":", 1, 13⟩, ⟨.name, b!"Int", 1, 15⟩, ⟨.name, b!"a", 1, 20⟩, ⟨.punctuator, b!":", 1, 21⟩, ⟨.name, b!"Int", 1, 23⟩, ⟨.punctuator, b!")", 1, 26⟩, ⟨.punctuator, b!":", 1, 27⟩, ⟨.name, b!"U", 1, 29⟩, ⟨.punctuator, b!"@", 1, 31⟩, ⟨.name, b!"deprecated", 1, 32⟩, ⟨.punctuator, b!"@", 1, 43⟩, ⟨.name, b!"deprecated", 1, 44⟩, ⟨.punctuator, b!"}", 1, 55⟩, ⟨.name, b!"type", 1, 57⟩, ⟨.name, b!"A", 1, 62⟩, ⟨.punctuator, b!"{", 1, 64⟩, ⟨.name, b!"y", 1, 66⟩, ⟨.punctuator, b!":", 1, 67⟩, ⟨.name, b!"Int", 1, 69⟩, ⟨.punctuator, b!"}", 1, 73⟩, ⟨.name, b!"directive", 1, 75⟩, ⟨.punctuator, b!"@", 1, 85⟩, ⟨.name, b!"q", 1, 86⟩, ⟨.punctuator, b!"(", 1, 87⟩, ⟨.name, b!"r", 1, 88⟩, ⟨.punctuator, b!":", 1, 89⟩, ⟨.name, b!"Int", 1, 91⟩, ⟨.punctuator, b!"!", 1, 94⟩, ⟨.punctuator, b!")", 1, 95⟩, ⟨.name, b!"on", 1, 97⟩, ⟨.name, b!"ENUM", 1, 100⟩, ⟨.name, b!"extend", 1, 105⟩, ⟨.name, b!"enum", 1, 112⟩, ⟨.name, b!"A", 1, 117⟩, ⟨.punctuator, b!"{", 1, 119⟩, ⟨.name, b!"V", 1, 121⟩, ⟨.punctuator, b!"@", 1, 123⟩, ⟨.name, b!"q", 1, 124⟩, ⟨.punctuator, b!"@", 1, 126⟩, ⟨.name, b!"z", 1, 127⟩, ⟨.punctuator, b!"}", 1, 129⟩, ⟨.name, b!"extend", 1, 131⟩, ⟨.name, b!"type", 1, 138⟩, ⟨.name, b!"B", 1, 143⟩, ⟨.punctuator, b!"{", 1, 145⟩, ⟨.name, b!"z", 1, 147⟩, ⟨.punctuator, b!":", 1, 148⟩, ⟨.name, b!"Int", 1, 150⟩, ⟨.punctuator, b!"}", 1, 154⟩, ⟨.eof, [], 1, 155⟩]) (by decide) rfl), rfl⟩

end GQL

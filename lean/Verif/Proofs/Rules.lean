/-
What each rule does at each event, and what a list of rules does in a walk.
-/
import Verif.Model.Rules
import Verif.Props.C28

namespace GQL

/-- Adding a list of errors, one after the other. -/
def Ctx.addErrors (c : Ctx) (es : List GErr) : Ctx := es.foldl Ctx.addError c

theorem Ctx.addErrors_eq (c : Ctx) (es : List GErr) : c.addErrors es = { c with errors := es.reverse ++ c.errors } := by
  unfold Ctx.addErrors
  induction es generalizing c with
  | nil => rfl
  | cons e es ih => rw [List.foldl_cons, ih]; simp [Ctx.addError]

theorem Ctx.addErrors_nil (c : Ctx) : c.addErrors [] = c := rfl
theorem Ctx.addErrors_one (c : Ctx) (e : GErr) : c.addErrors [e] = c.addError e := rfl
theorem Ctx.addErrors_append (c : Ctx) (a b : List GErr) : c.addErrors (a ++ b) = (c.addErrors a).addErrors b := by
  simp [Ctx.addErrors, List.foldl_append]

/-- The names that have occurred before, in order. -/
def repeats : List Bytes → List Bytes → List Bytes
  | _, [] => []
  | known, n :: ns => if known.contains n then n :: repeats known ns else repeats (n :: known) ns

theorem repeatsLoop_eq (err : Bytes → GErr) : ∀ known names c,
    repeatsLoop err known names c = c.addErrors ((repeats known names).map err)
  | _, [], _ => rfl
  | known, n :: ns, c => by
    simp only [repeatsLoop, repeats]
    split
    · rw [repeatsLoop_eq err known ns]; rfl
    · rw [repeatsLoop_eq err _ ns]

/-- The arguments of a directive that `KnownArgumentNamesOnDirectives` reports. -/
def badArgs (defs : List InputVal) : List Argument → List Argument
  | [] => []
  | a :: as => (if defs.any fun d => a.name == d.name then [] else [a]) ++ as

theorem knownArgumentsLoop_reset (n : Bytes) (defs : List InputVal) : ∀ (as : List Argument) (c : Ctx),
    knownArgumentsLoop n defs as [] c = c.addErrors (as.map fun a => unknownDirectiveArgError a.name n)
  | [], _ => rfl
  | a :: as, c => by
    simp only [knownArgumentsLoop, resetGenerator, List.any_nil, Bool.not_false, ↓reduceIte]
    rw [knownArgumentsLoop_reset n defs as]; rfl

theorem knownArgumentsLoop_eq (n : Bytes) (defs : List InputVal) (as : List Argument) (c : Ctx) :
    knownArgumentsLoop n defs as defs c = c.addErrors ((badArgs defs as).map fun a => unknownDirectiveArgError a.name n) := by
  cases as with
  | nil => rfl
  | cons a as =>
    simp only [knownArgumentsLoop, resetGenerator, knownArgumentsLoop_reset, badArgs]
    cases defs.any fun d => a.name == d.name <;> rfl

theorem unusedLoop_eq (uses opName : _) : ∀ (vs : List VarDef) (c : Ctx),
    unusedLoop uses opName vs c =
      c.addErrors ((vs.filter fun v => !uses.contains v.name).map fun v => unusedVariableError v.name opName)
  | [], _ => rfl
  | v :: vs, c => by
    have : (uses.any fun k => k == v.name) = uses.contains v.name := by
      rw [Bool.eq_iff_iff]; simp
    simp only [unusedLoop, this, unusedLoop_eq uses opName vs, List.filter_cons]
    cases uses.contains v.name <;> rfl

/-- Is the argument definition without default and not null? -/
def InputVal.required (v : InputVal) : Bool :=
  v.default.isNone && v.type.nonNull

theorem requiredLoop_eq (d : Directive) : ∀ (vs : List InputVal) (c : Ctx),
    requiredLoop d vs c = c.addErrors ((vs.filter fun v => v.required && !d.args.any fun a => a.name == v.name).map
      fun v => missingDirectiveArgError d.name v.name v.type.str)
  | [], _ => rfl
  | v :: vs, c => by
    simp only [requiredLoop, requiredLoop_eq d vs, List.filter_cons, InputVal.required]
    cases (d.args.any fun a => a.name == v.name) <;> cases v.default.isNone <;>
      cases v.type.nonNull <;> rfl

/-! ### The errors of each rule at each event -/

def execErrs (_ : Ctx) : Event → List GErr
  | .enter (.definition _ d) => if d.isExecutable then [] else [nonExecutableDefinitionError (getDefinitionName d)]
  | _ => []

/-- The definition `KnownArgumentNamesOnDirectives` uses. -/
def argDirectiveDefinition (c : Ctx) (name : Bytes) : Option DirDef :=
  match c.directiveDefinition name with
  | .ret r => r.1
  | _ => none

def knownArgErrs (c : Ctx) : Event → List GErr
  | .enter (.directive d) =>
    match argDirectiveDefinition c d.name with
    | none => []
    | some dd => (badArgs dd.args d.args).map fun a => unknownDirectiveArgError a.name d.name
  | _ => []

def knownDirErrs (c : Ctx) : Event → List GErr
  | .enter (.directive d) =>
    match knownDirectiveDefinition c d.name with
    | none => [unknownDirectiveError d.name]
    | some dd => if dd.locs &&& d.loc.bit = 0 then [misplacedDirectiveError d.name d.loc] else []
  | _ => []

/-- Is the type name known to `KnownTypeNames`? -/
def typeNameKnown (c : Ctx) (n : Bytes) : Bool :=
  (c.schema.types.lookup n).isSome || (c.documentType n).isSome || isSpecifiedScalarName n

def knownTypeErrs (c : Ctx) : Event → List GErr
  | .enter (.namedType t) => if typeNameKnown c t.namedType then [] else [unknownTypeError t.namedType]
  | _ => []

def loneAnonErrs (c : Ctx) : Event → List GErr
  | .enter (.operationDefinition _ o) => if o.name = [] ∧ c.doc.operations > 1 then [anonOperationNotAloneError] else []
  | _ => []

/-- The variables `NoUnusedVariables` finds in the definition. -/
def usesOf (c : Ctx) (i : Nat) : List Bytes :=
  match c.recursiveVariableUsages c.depthBound (some i) with
  | .ret u => u
  | _ => []

def unusedErrs (c : Ctx) : Event → List GErr
  | .leave (.executableDefinition i (.op o)) =>
    (o.vars.filter fun v => !(usesOf c i).contains v.name).map fun v => unusedVariableError v.name o.name
  | _ => []

def nameErr (n : Bytes) : List GErr := if isValidName n then [] else [nameStartsWithTwoUnderscoresError n]

def namesErrs (_ : Ctx) : Event → List GErr
  | .enter (.inputValueDefinition d) => nameErr d.name
  | .enter (.directiveDefinition d) => nameErr d.name
  | .enter (.fieldDefinition d) => nameErr d.name
  | .enter (.typeDefinition d) => nameErr d.name
  | _ => []

/-- The definition `PossibleTypeExtensions` uses. -/
def extTypeDefinition (c : Ctx) (name : Bytes) : Option TypeDef :=
  match c.typeDefinition name with
  | .ret r => r.1
  | _ => none

def typeExtErrs (c : Ctx) : Event → List GErr
  | .enter (.typeExtension e) =>
    match extTypeDefinition c e.name with
    | some t => if e.kind ≠ t.kind then [extendingDifferentTypeKindError e.name t.kind.str] else []
    | none => [extendingUnknownTypeError e.name]
  | _ => []

def requiredErrs (c : Ctx) : Event → List GErr
  | .enter (.directive d) =>
    match knownDirectiveDefinition c d.name with
    | none => []
    | some dd => (dd.args.filter fun v => v.required && !d.args.any fun a => a.name == v.name).map
        fun v => missingDirectiveArgError d.name v.name v.type.str
  | _ => []

def argNamesErrs (_ : Ctx) : Event → List GErr
  | .enter (.fieldSelection (.field _ _ args _ _)) => (repeats [] (args.map (·.name))).map duplicateArgError
  | .enter (.directive d) => (repeats [] (d.args.map (·.name))).map duplicateArgError
  | .enter (.fieldDefinition d) => (repeats [] (d.args.map (·.name))).map duplicateArgError
  | .enter (.directiveDefinition d) => (repeats [] (d.args.map (·.name))).map duplicateArgError
  | _ => []

def dirsErrs (_ : Ctx) : Event → List GErr
  | .enter (.directives ds) => (repeats [] (ds.map (·.name))).map duplicateDirectiveError
  | _ => []

def inputFieldErrs (_ : Ctx) : Event → List GErr
  | .enter (.objectValue (.obj fs)) => (repeats [] (fs.map (·.1))).map duplicateInputFieldError
  | _ => []

def opNamesErrs (c : Ctx) : Event → List GErr
  | .enter (.operationDefinition i o) =>
    match c.operations.lookup o.name with
    | some j => if j ≠ i then [duplicateOperationNameError o.name] else []
    | none => []
  | _ => []

/-- The errors of the first loop of `UniqueOperationTypes`. -/
def opTypeRepeats : (OpKind → Bool) → List OpTypeDef → List GErr
  | _, [] => []
  | defined, o :: os =>
    (if defined o.op then [duplicateOperationTypeError o.op.str] else []) ++ opTypeRepeats (fun k => k == o.op || defined k) os

/-- The errors of the second loop of `UniqueOperationTypes`. -/
def opTypeExtRepeats (sch : Schema) : (OpKind → Bool) → List OpTypeDef → List GErr
  | _, [] => []
  | defined, o :: os =>
    (if (sch.rootType o.op).isSome then [existedOperationTypeError o.op.str]
      else if defined o.op then [duplicateOperationTypeError o.op.str] else []) ++
      opTypeExtRepeats sch (fun k => k == o.op || defined k) os

/-- Which root types have been defined so far. -/
def Ctx.defined (c : Ctx) (k : OpKind) : Bool :=
  match c.sdl with
  | some s => s.defined k
  | none => false

def opTypesErrs (c : Ctx) : Event → List GErr
  | .leave (.schemaDefinition d) => opTypeRepeats (fun _ => false) d.ops
  | .leave (.schemaExtension d) => opTypeExtRepeats c.schema c.defined d.ops
  | _ => []

/-- The errors of a rule at an event. -/
def Rule.errs : Rule → Ctx → Event → List GErr
  | .executableDefinitions => execErrs
  | .knownArgumentNamesOnDirectives => knownArgErrs
  | .knownDirectives => knownDirErrs
  | .knownTypeNames => knownTypeErrs
  | .loneAnonymousOperation => loneAnonErrs
  | .noUnusedVariables => unusedErrs
  | .possibleNames => namesErrs
  | .possibleTypeExtensions => typeExtErrs
  | .providedRequiredArgumentsOnDirectives => requiredErrs
  | .uniqueArgumentNames => argNamesErrs
  | .uniqueDirectivesPerLocation => dirsErrs
  | .uniqueInputFieldNames => inputFieldErrs
  | .uniqueOperationNames => opNamesErrs
  | .uniqueOperationTypes => opTypesErrs

theorem Ctx.defined_some {c : Ctx} {s : SDLContext} (h : c.sdl = some s) : c.defined = s.defined := by
  funext k; simp only [Ctx.defined, h]

/-- The root types that are defined once the entries have been seen. -/
def SDLContext.defineAll (s : SDLContext) (os : List OpTypeDef) : SDLContext := os.foldl (fun s o => s.define o.op) s

/-- The change of the flags of `UniqueOperationTypes` at an event. -/
def Ctx.flagAfter (c : Ctx) : Event → Ctx
  | .leave (.schemaDefinition d) => { c with sdl := c.sdl.map fun s => s.defineAll d.ops }
  | .leave (.schemaExtension d) => { c with sdl := c.sdl.map fun s => s.defineAll d.ops }
  | _ => c

/-- The context after a rule has handled an event. -/
def Rule.after (r : Rule) (c : Ctx) (e : Event) : Ctx :=
  match r with
  | .uniqueOperationTypes => (c.flagAfter e).addErrors (r.errs c e)
  | _ => c.addErrors (r.errs c e)

/-- What a rule needs to run without a panic. -/
def Rule.ready (r : Rule) (c : Ctx) : Prop :=
  match r with
  | .knownArgumentNamesOnDirectives | .possibleTypeExtensions | .providedRequiredArgumentsOnDirectives | .uniqueOperationTypes =>
    c.sdl.isSome = true
  | .noUnusedVariables => ∀ d, ∃ u, c.recursiveVariableUsages c.depthBound d = .ret u
  | _ => True

/-- The rule does one thing at each event. -/
def Rule.does (r : Rule) : Prop := ∀ c e, r.ready c → Walker.on (r.visit []) e (.ret c) = .ret (r.after c e)

theorem exec_does : Rule.does .executableDefinitions := by
  intro c e _
  rcases e with n | n
  · cases n <;> try rfl
    rename_i i d
    show Out.ret (if !d.isExecutable then _ else _) = .ret (c.addErrors (if d.isExecutable then _ else _))
    cases d.isExecutable <;> rfl
  · cases n <;> rfl

theorem knownArg_does : Rule.does .knownArgumentNamesOnDirectives := by
  intro c e hc
  rcases e with n | n
  · cases n <;> try rfl
    rename_i d
    show (if d.args.length = 0 then Out.ret c else (c.directiveDefinition d.name).bind _) = .ret (c.addErrors _)
    simp only [Rule.errs, knownArgErrs]
    by_cases h : d.args.length = 0
    · rw [if_pos h, List.length_eq_zero_iff.1 h]
      cases argDirectiveDefinition c d.name <;> rfl
    · rw [if_neg h]
      unfold argDirectiveDefinition
      rcases hs : c.sdl with _ | s
      · simp [Rule.ready, hs] at hc
      · have : ∃ r, c.directiveDefinition d.name = .ret r := by
          unfold Ctx.directiveDefinition; rw [hs]; exact ⟨_, rfl⟩
        obtain ⟨⟨r, b⟩, hr⟩ := this
        rw [hr]
        cases r with
        | none => rfl
        | some dd => simp only [Out.bind, knownArgumentsLoop_eq]
  · cases n <;> rfl

theorem knownDir_does : Rule.does .knownDirectives := by
  intro c e _
  rcases e with n | n
  · cases n <;> try rfl
    rename_i d
    show (match knownDirectiveDefinition c d.name with | none => _ | some dd => _) = Out.ret (c.addErrors _)
    simp only [Rule.errs, knownDirErrs]
    cases knownDirectiveDefinition c d.name with
    | none => rfl
    | some dd => dsimp only; split <;> rfl
  · cases n <;> rfl

theorem knownType_does : Rule.does .knownTypeNames := by
  intro c e _
  rcases e with n | n
  · cases n <;> try rfl
    rename_i t
    have : ∀ (a b d : Bool) (e : GErr), (if !a && !b && !d then c.addError e else c) = c.addErrors (if a || b || d then [] else [e]) := by
      intro a b d e; cases a <;> cases b <;> cases d <;> rfl
    exact congrArg Out.ret (this _ _ _ _)
  · cases n <;> rfl

theorem loneAnon_does : Rule.does .loneAnonymousOperation := by
  intro c e _
  rcases e with n | n
  · cases n <;> try rfl
    rename_i i o
    show Out.ret (if o.name = [] ∧ c.doc.operations > 1 then _ else _) = .ret (c.addErrors (if o.name = [] ∧ c.doc.operations > 1 then _ else _))
    split <;> rfl
  · cases n <;> rfl

theorem unused_does : Rule.does .noUnusedVariables := by
  intro c e hc
  rcases e with n | n
  · cases n <;> rfl
  · cases n <;> try rfl
    rename_i i b
    cases b <;> try rfl
    rename_i o
    show (c.recursiveVariableUsages c.depthBound (some i)).bind _ = _
    obtain ⟨u, hu⟩ := hc (some i)
    simp only [Rule.after, Rule.errs, unusedErrs, usesOf, hu, Out.bind, unusedLoop_eq]

theorem checkName_eq (n : Bytes) (c : Ctx) : checkName n c = c.addErrors (nameErr n) := by
  unfold checkName nameErr
  cases isValidName n <;> rfl

theorem names_does : Rule.does .possibleNames := by
  intro c e _
  rcases e with n | n
  · cases n <;> try rfl
    all_goals
      simp only [Rule.after, Rule.errs, namesErrs, ← checkName_eq]
      rfl
  · cases n <;> rfl

theorem typeExt_does : Rule.does .possibleTypeExtensions := by
  intro c e hc
  rcases e with n | n
  · cases n <;> try rfl
    rename_i t
    show (c.typeDefinition t.name).bind _ = _
    simp only [Rule.after, Rule.errs, typeExtErrs, extTypeDefinition]
    rcases hs : c.sdl with _ | s
    · simp [Rule.ready, hs] at hc
    · have : ∃ r, c.typeDefinition t.name = .ret r := by
        unfold Ctx.typeDefinition; rw [hs]; dsimp only; split <;> exact ⟨_, rfl⟩
      obtain ⟨⟨r, b⟩, hr⟩ := this
      rw [hr]
      cases r with
      | none => rfl
      | some t' => simp only [Out.bind]; split <;> rfl
  · cases n <;> rfl

theorem required_does : Rule.does .providedRequiredArgumentsOnDirectives := by
  intro c e hc
  rcases e with n | n
  · cases n <;> try rfl
    rename_i d
    rcases hs : c.sdl with _ | s
    · simp [Rule.ready, hs] at hc
    · simp only [Rule.after, Rule.errs, requiredErrs, knownDirectiveDefinition, Ctx.documentDirective, hs]
      simp only [Rule.visit, providedRequiredArgumentsOnDirectives, Walker.addEnter, List.nil_append, Walker.on, ANode.kind, List.filter_cons,
        Bool.true_and, beq_self_eq_true, ↓reduceIte, List.filter_nil, List.foldl_cons, List.foldl_nil, handler, Out.bind, hs]
      cases c.schema.directives.lookup d.name with
      | some dd => simp only [requiredLoop_eq]
      | none =>
        dsimp only
        cases s.directives.lookup d.name with
        | some dd => simp only [requiredLoop_eq]
        | none =>
          dsimp only
          cases specifiedDirectives.lookup d.name with
          | some dd => simp only [requiredLoop_eq]
          | none => rfl
  · cases n <;> rfl

theorem argNames_does : Rule.does .uniqueArgumentNames := by
  intro c e _
  rcases e with n | n
  · cases n <;> try rfl
    case fieldSelection s =>
      cases s <;> try rfl
      simp only [Rule.after, Rule.errs, argNamesErrs, ← repeatsLoop_eq]
      rfl
    all_goals
      simp only [Rule.after, Rule.errs, argNamesErrs, ← repeatsLoop_eq]
      rfl
  · cases n <;> rfl

theorem dirs_does : Rule.does .uniqueDirectivesPerLocation := by
  intro c e _
  rcases e with n | n
  · cases n <;> try rfl
    rename_i ds
    simp only [Rule.after, Rule.errs, dirsErrs, ← repeatsLoop_eq]
    cases ds <;> rfl
  · cases n <;> rfl

theorem inputFields_does : Rule.does .uniqueInputFieldNames := by
  intro c e _
  rcases e with n | n
  · cases n <;> try rfl
    rename_i v
    cases v <;> try rfl
    simp only [Rule.after, Rule.errs, inputFieldErrs, ← repeatsLoop_eq]
    rfl
  · cases n <;> rfl

theorem opNames_does : Rule.does .uniqueOperationNames := by
  intro c e _
  rcases e with n | n
  · cases n <;> try rfl
    rename_i i o
    show (match c.operations.lookup o.name with | some j => _ | none => _) = Out.ret (c.addErrors _)
    simp only [Rule.errs, opNamesErrs]
    cases c.operations.lookup o.name with
    | none => rfl
    | some j => dsimp only; split <;> rfl
  · cases n <;> rfl

theorem SDLContext.defined_define (s : SDLContext) (k : OpKind) : (s.define k).defined = fun k' => k' == k || s.defined k' := by
  funext k'
  cases k <;> cases k' <;> rfl

theorem Ctx.addErrors_sdl (c : Ctx) (es : List GErr) (x : Option SDLContext) :
    { c.addErrors es with sdl := x } = { c with sdl := x }.addErrors es := by
  simp only [Ctx.addErrors_eq]

theorem schemaOpsLoop_eq : ∀ (os : List OpTypeDef) (f : OpKind → Bool) (c : Ctx) (s : SDLContext),
    schemaOpsLoop os f c s = { c with sdl := some (s.defineAll os) }.addErrors (opTypeRepeats f os)
  | [], _, _, _ => rfl
  | o :: os, f, c, s => by
    simp only [schemaOpsLoop, opTypeRepeats, schemaOpsLoop_eq os, Ctx.addErrors_append, SDLContext.defineAll, List.foldl_cons]
    split <;> rfl

theorem schemaExtOpsLoop_eq : ∀ (os : List OpTypeDef) (c : Ctx) (s : SDLContext),
    schemaExtOpsLoop os c s = { c with sdl := some (s.defineAll os) }.addErrors (opTypeExtRepeats c.schema s.defined os)
  | [], _, _ => rfl
  | o :: os, c, s => by
    simp only [schemaExtOpsLoop, opTypeExtRepeats, schemaExtOpsLoop_eq os, Ctx.addErrors_append, SDLContext.defineAll, List.foldl_cons,
      SDLContext.defined_define]
    split
    · rfl
    · split <;> rfl

theorem opTypes_does : Rule.does .uniqueOperationTypes := by
  intro c e hc
  rcases hs : c.sdl with _ | s
  · simp [Rule.ready, hs] at hc
  rcases e with n | n
  · cases n <;> rfl
  · cases n <;> try rfl
    all_goals
      simp only [Rule.after, Rule.errs, opTypesErrs, Ctx.flagAfter, hs, Option.map_some, Ctx.defined_some hs]
      simp only [Rule.visit, uniqueOperationTypes, Walker.addLeave, List.nil_append, Walker.on, ANode.kind, List.cons_append, List.filter_cons,
        Bool.not_false, Bool.true_and, beq_self_eq_true, ↓reduceIte, List.filter_nil, List.foldl_cons, List.foldl_nil, handler, Out.bind, hs,
        reduceCtorEq, Bool.false_eq_true, beq_iff_eq, schemaOpsLoop_eq, schemaExtOpsLoop_eq]

theorem Rule.does_all (r : Rule) : r.does := by
  cases r
  · exact exec_does
  · exact knownArg_does
  · exact knownDir_does
  · exact knownType_does
  · exact loneAnon_does
  · exact unused_does
  · exact names_does
  · exact typeExt_does
  · exact required_does
  · exact argNames_does
  · exact dirs_does
  · exact inputFields_does
  · exact opNames_does
  · exact opTypes_does

end GQL

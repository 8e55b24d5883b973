/-
Locality of selections and definitions.
-/
import Verif.Proofs.ParseLocalParse

namespace GQL
open Spec Spec.Syntax

section
variable (pf : Bytes → Option Nat)

/-- One variable definition. -/
def varEntry (n : Nat) : P VarDef := do
  let _ ← mustConsume1 .punctuator b!"$"
  let t ← mustConsume0 .name
  let _ ← mustConsume1 .punctuator b!":"
  let ty ← parseType n
  let dv ← parseDefaultValue pf n
  return ⟨t.lit, ty, dv⟩

theorem loc_parseVariableDefinitions (n m : Nat) : Loc m (parseVariableDefinitions pf n) (parseVariableDefinitions pf m) := by
  have h1 := loc_parseType n m; have h2 := loc_parseDefaultValue pf n m
  have s1 := shr_parseType m; have s2 := shr_parseDefaultValue pf m
  have s1' := shr_parseType n; have s2' := shr_parseDefaultValue pf n
  have sm : Shr (varEntry pf m) := by unfold varEntry; shr
  have pm : Progress (varEntry pf m) := progress_left progress_mustConsume1 (fun _ => by shr)
  have pn : Progress (varEntry pf n) := progress_left progress_mustConsume1 (fun _ => by shr)
  have hl : Loc m (varEntry pf n) (varEntry pf m) := by unfold varEntry; loc
  have hL := loc_closed leaves_peek shr_peek1 (l := b!")") hl pn pm sm
  show Loc m (skip1 .punctuator b!"(" >>= fun b => if b = true then (doWhile (varEntry pf n) (peek1 .punctuator b!")") >>= fun as =>
      mustConsume1 .punctuator b!")" >>= fun _ => pure as) else pure [])
    (skip1 .punctuator b!"(" >>= fun b => if b = true then (doWhile (varEntry pf m) (peek1 .punctuator b!")") >>= fun as =>
      mustConsume1 .punctuator b!")" >>= fun _ => pure as) else pure [])
  loc

/-! ### Selections -/

theorem loc_parseFragmentSpread (n m : Nat) : Loc m (parseFragmentSpread pf n) (parseFragmentSpread pf m) := by
  have h1 := loc_parseDirectives pf n m .fragmentSpread
  have s1 := shr_parseDirectives pf m .fragmentSpread
  unfold parseFragmentSpread; loc

/-- The type condition of an inline fragment. -/
def optCond (n : Nat) : P (Option Ty) := do
  if ← peek1 .name b!"on" then
    let c ← parseTypeCondition n
    return some c
  else return none

theorem shr_optCond (n : Nat) : Shr (optCond n) := by
  have := shr_parseTypeCondition n
  unfold optCond; shr

theorem headEats_parseTypeCondition (n : Nat) : HeadEats (isTok .name b!"on") (parseTypeCondition n) :=
  headEats_bind headEats_mustConsume1 (fun _ => shr_bind (shr_parseType n) fun t => shr_bind (shr_mustBeNamed t) fun _ => shr_pure _)

theorem loc_optCond (n m : Nat) : Loc m (optCond n) (optCond m) := by
  unfold optCond
  rw [peek_branch peeks_peek1, peek_branch peeks_peek1]
  exact loc_branch (loc_bind (loc_parseTypeCondition n m) (fun _ => shr_pure _) (fun _ => loc_pure _)) (loc_pure _)
    (headEats_bind (headEats_parseTypeCondition n) (fun _ => shr_pure _)) (headEats_bind (headEats_parseTypeCondition m) (fun _ => shr_pure _))

theorem loc_parseInlineFragment (n m : Nat) {sel sel' : P (List Selection)} (h : Loc m sel sel') (s : Shr sel') :
    Loc m (parseInlineFragment pf n sel) (parseInlineFragment pf m sel') := by
  have h1 := loc_parseDirectives pf n m .inlineFragment
  have s1 := shr_parseDirectives pf m .inlineFragment
  have h2 := loc_optCond n m
  have s2 := shr_optCond m
  show Loc m (optCond n >>= fun cond => parseDirectives pf n .inlineFragment >>= fun dirs => sel >>= fun sels => pure (Selection.inline cond dirs sels))
    (optCond m >>= fun cond => parseDirectives pf m .inlineFragment >>= fun dirs => sel' >>= fun sels => pure (Selection.inline cond dirs sels))
  loc

/-- The alias of a field. -/
def optAlias (t : Token) : P (Bytes × Bytes) := do
  if ← skip1 .punctuator b!":" then
    let t2 ← mustConsume0 .name
    return (t.lit, t2.lit)
  else return (([] : Bytes), t.lit)

theorem shr_parseField (n : Nat) {sel : P (List Selection)} (s : Shr sel) : Shr (parseField pf n sel) := by
  have := shr_parseDirectives pf n .field; have := shr_parseArguments pf n
  unfold parseField; shr

theorem progress_parseField (n : Nat) {sel : P (List Selection)} (s : Shr sel) : Progress (parseField pf n sel) := by
  have := shr_parseDirectives pf n .field; have := shr_parseArguments pf n
  exact progress_left progress_mustConsume0 (fun _ => by shr)

theorem loc_parseField (n m : Nat) {sel sel' : P (List Selection)} (h : Loc m sel sel') (s : Shr sel') :
    Loc m (parseField pf n sel) (parseField pf m sel') := by
  have h1 := loc_parseDirectives pf n m .field
  have s1 := shr_parseDirectives pf m .field
  have h2 := loc_parseArguments pf n m
  have s2 := shr_parseArguments pf m
  unfold parseField
  loc

/-- One selection. -/
def selEntry (n k : Nat) : P Selection := do
  if ← skip1 .punctuator b!"..." then
    let t ← cur
    if t.kind = .name ∧ t.lit ≠ b!"on" then parseFragmentSpread pf n
    else parseInlineFragment pf n (parseSelectionSet pf k false)
  else parseField pf n (parseSelectionSet pf k true)

/-- A name other than `on`. -/
def isSpread (t : Token) : Bool := decide (t.kind = .name ∧ t.lit ≠ b!"on")

theorem cur_branch {α : Type} (c : Token → Prop) [∀ t, Decidable (c t)] (A B : P α) :
    (cur >>= fun t => if c t then A else B) = branch (fun t => decide (c t)) A B := by
  funext ts
  rw [bind_eq (cur_eq ts)]
  unfold branch
  by_cases h : c (hd ts) <;> simp [h]

theorem shr_parseFragmentSpread (n : Nat) : Shr (parseFragmentSpread pf n) := by
  have := shr_parseDirectives pf n .fragmentSpread
  unfold parseFragmentSpread; shr

theorem headEats_parseFragmentSpread (n : Nat) : HeadEats isSpread (parseFragmentSpread pf n) := by
  have := shr_parseDirectives pf n .fragmentSpread
  exact headEats_bind (headEats_mustConsume0 (fun t h => (of_decide_eq_true h).1)) (fun _ => by shr)

theorem shr_parseInlineFragment (n : Nat) {sel : P (List Selection)} (s : Shr sel) : Shr (parseInlineFragment pf n sel) := by
  have := shr_parseDirectives pf n .inlineFragment; have := shr_parseTypeCondition n
  unfold parseInlineFragment; shr

theorem selEntry_branch (n k : Nat) : selEntry pf n k = skip1 .punctuator b!"..." >>= fun b => if b = true then
    branch isSpread (parseFragmentSpread pf n) (parseInlineFragment pf n (parseSelectionSet pf k false))
    else parseField pf n (parseSelectionSet pf k true) := by
  unfold selEntry
  rw [cur_branch (fun t => t.kind = .name ∧ t.lit ≠ b!"on")]
  rfl

theorem shr_selEntry (n k : Nat) : Shr (selEntry pf n k) := by
  rw [selEntry_branch]
  exact shr_bind shr_skip1 fun _ => shr_ite (shr_branch (shr_parseFragmentSpread pf n) (shr_parseInlineFragment pf n (shr_parseSelectionSet pf k _)))
    (shr_parseField pf n (shr_parseSelectionSet pf k _))

theorem progress_selEntry (n k : Nat) : Progress (selEntry pf n k) := by
  rw [selEntry_branch]
  exact progress_skip (shr_branch (shr_parseFragmentSpread pf n) (shr_parseInlineFragment pf n (shr_parseSelectionSet pf k _)))
    (progress_parseField pf n (shr_parseSelectionSet pf k _))

theorem parseSelectionSet_eq (n : Nat) (o : Bool) : parseSelectionSet pf (n + 1) o =
    skip1 .punctuator b!"{" >>= fun b => if b = true then
      (doWhile (selEntry pf n n) (orP (peek1 .punctuator b!"}") (peek0 .eof)) >>= fun as => mustConsume1 .punctuator b!"}" >>= fun _ => pure as)
    else if o = true then pure [] else unexpectedCur [expected .punctuator [b!"{"]] := by
  rw [parseSelectionSet]; rfl

theorem loc_parseSelectionSet (n : Nat) : ∀ m o, Loc m (parseSelectionSet pf n o) (parseSelectionSet pf m o) := by
  induction n with
  | zero => intro m o; exact loc_oof
  | succ n ih =>
    have key : ∀ m o, Loc (m + 1) (parseSelectionSet pf (n + 1) o) (parseSelectionSet pf (m + 1) o) := by
      intro m o
      have hE : Loc m (selEntry pf n n) (selEntry pf m m) := by
        rw [selEntry_branch, selEntry_branch]
        refine loc_bind loc_skip1 (fun _ => ?_) (fun b => loc_ite (fun _ => ?_) (fun _ => ?_))
        · exact shr_ite (shr_branch (shr_parseFragmentSpread pf m) (shr_parseInlineFragment pf m (shr_parseSelectionSet pf m _)))
            (shr_parseField pf m (shr_parseSelectionSet pf m _))
        · exact loc_branch (loc_parseFragmentSpread pf n m) (loc_parseInlineFragment pf n m (ih m false) (shr_parseSelectionSet pf m _))
            (headEats_parseFragmentSpread pf n) (headEats_parseFragmentSpread pf m)
        · exact loc_parseField pf n m (ih m true) (shr_parseSelectionSet pf m _)
      have hL := loc_closed leaves_or (shr_orP shr_peek1 shr_peek0) (l := b!"}") hE (progress_selEntry pf n n) (progress_selEntry pf m m) (shr_selEntry pf m m)
      have se := shr_selEntry pf m m
      rw [parseSelectionSet_eq, parseSelectionSet_eq]
      cases o with
      | true =>
        refine loc_skip_bind (fun _ => by shr) ?_ ?_
        · rw [if_pos rfl, if_pos rfl]; exact hL
        · simp only [Bool.false_eq_true, if_false, if_true]; exact loc_pure _
      | false =>
        simp only [Bool.false_eq_true, if_false]
        rw [skip1_mustConsume, skip1_mustConsume]
        exact loc_bindP loc_mustPu progress_mustConsume1 (fun _ => by shr) (fun _ => hL)
    intro m o
    cases m with
    | zero => exact (key 0 o).zero
    | succ m => exact key m o

theorem headEats_parseSelectionSet (n : Nat) (o : Bool) : HeadEats (isTok .punctuator b!"{") (parseSelectionSet pf n o) := by
  cases n with
  | zero => intro t r _; exact trivial
  | succ n =>
    rw [parseSelectionSet_eq]
    have se := shr_selEntry pf n n
    exact headEats_bind headEats_skip1 (fun _ => by shr)

/-! ### Operations and fragments -/

theorem loc_parseOperationType {m : Nat} : Loc m parseOperationType parseOperationType :=
  loc_bind (loc_mustConsumen (by decide) (by decide) (by decide) (by decide)) (fun _ => shr_pure _) (fun _ => loc_pure _)

theorem headEats_parseOperationType : HeadEats (isOneOf [b!"query", b!"mutation", b!"subscription"]) parseOperationType :=
  headEats_bind (headEats_mustConsumen (by decide) (fun _ h => isOneOf_iff.1 h)) (fun _ => shr_pure _)

theorem loc_parseOperationDefinition (n m : Nat) (b : Bool) : Loc m (parseOperationDefinition pf n b) (parseOperationDefinition pf m b) := by
  unfold parseOperationDefinition
  refine loc_ite (fun _ => loc_bind (loc_parseSelectionSet pf n m _) (fun _ => shr_pure _) (fun _ => loc_pure _)) (fun _ => ?_)
  have sd := fun k => shr_parseDirectives pf m k; have sv := shr_parseVariableDefinitions pf m; have ss := shr_parseSelectionSet pf m false
  refine loc_bind loc_parseOperationType (fun k => ?_) (fun k => ?_)
  · have := sd k.loc; shr
  have := sd k.loc
  have := loc_parseVariableDefinitions pf n m; have := loc_parseDirectives pf n m k.loc; have := loc_parseSelectionSet pf n m false
  loc

theorem headEats_op (n : Nat) : HeadEats (isOneOf [b!"query", b!"mutation", b!"subscription"]) (parseOperationDefinition pf n false) := by
  have sd := fun k => shr_parseDirectives pf n k; have sv := shr_parseVariableDefinitions pf n; have ss := shr_parseSelectionSet pf n false
  unfold parseOperationDefinition
  rw [if_neg (by decide)]
  exact headEats_bind headEats_parseOperationType (fun k => by have := sd k.loc; shr)

theorem headEats_shorthand (n : Nat) : HeadEats (isTok .punctuator b!"{") (parseOperationDefinition pf n true) := by
  unfold parseOperationDefinition
  rw [if_pos rfl]
  exact headEats_bind (headEats_parseSelectionSet pf n false) (fun _ => shr_pure _)

/-- What follows the name of a fragment. -/
def fragRest (n : Nat) (t : Token) : P FragDef := do
  let cond ← parseTypeCondition n
  let dirs ← parseDirectives pf n .fragmentDefinition
  let sels ← parseSelectionSet pf n false
  return ⟨t.lit, cond, dirs, sels⟩

theorem loc_parseFragmentDefinition (n m : Nat) : Loc m (parseFragmentDefinition pf n) (parseFragmentDefinition pf m) := by
  have h1 := loc_parseTypeCondition n m; have h2 := loc_parseDirectives pf n m .fragmentDefinition; have h3 := loc_parseSelectionSet pf n m false
  have s1 := shr_parseTypeCondition m; have s2 := shr_parseDirectives pf m .fragmentDefinition; have s3 := shr_parseSelectionSet pf m false
  have hu : ∀ {α : Type}, Loc m (unexpectedCur [expected .name [b!"!on"]] : P α) (unexpectedCur [expected .name [b!"!on"]]) :=
    loc_unexpectedCur (fun x hx t' hw => by rw [List.mem_singleton] at hx; subst hx; exact not_wanted_on hw) (by decide)
  unfold parseFragmentDefinition
  refine loc_bind loc_skip1 (fun _ => shr_ite (shr_bind shr_consume0 fun o => ?_) shr_crash) (fun _ => loc_ite (fun _ => ?_) (fun _ => loc_crash))
  · cases o with
    | none => exact shr_crash
    | some t => shr
  · refine loc_bind loc_consume0 (fun o => ?_) (fun o => ?_)
    · cases o with
      | none => exact shr_crash
      | some t => shr
    · cases o with
      | none => exact loc_crash
      | some t =>
        refine loc_ite (fun _ => hu) (fun _ => ?_)
        loc

theorem headEats_parseFragmentDefinition (n : Nat) : HeadEats (isTok .name b!"fragment") (parseFragmentDefinition pf n) := by
  have s1 := shr_parseTypeCondition n; have s2 := shr_parseDirectives pf n .fragmentDefinition; have s3 := shr_parseSelectionSet pf n false
  unfold parseFragmentDefinition
  refine headEats_bind headEats_skip1 (fun _ => shr_ite (shr_bind shr_consume0 fun o => ?_) shr_crash)
  cases o with
  | none => exact shr_crash
  | some t => shr

/-! ### Schema definitions -/

theorem parseOperationTypeDefinition_eq (n : Nat) : parseOperationTypeDefinition n = parseOperationType >>= fun k =>
    mustConsume1 .punctuator b!":" >>= fun _ => parseType n >>= fun t => mustBeNamed t >>= fun _ => pure ⟨t, k⟩ := by
  unfold parseOperationTypeDefinition
  congr 1
  funext k
  rw [skip1_mustConsume]

theorem shr_parseOperationTypeDefinition (n : Nat) : Shr (parseOperationTypeDefinition n) := by
  rw [parseOperationTypeDefinition_eq]
  exact shr_bind shr_parseOperationType fun k => shr_bind shr_mustConsume1 fun _ => shr_bind (shr_parseType n) fun t => shr_bind (shr_mustBeNamed t) fun _ => shr_pure _

theorem progress_parseOperationType : Progress parseOperationType :=
  progress_left (mustConsumen_progress (by decide)) (fun _ => shr_pure _)

theorem progress_parseOperationTypeDefinition (n : Nat) : Progress (parseOperationTypeDefinition n) := by
  rw [parseOperationTypeDefinition_eq]
  exact progress_left progress_parseOperationType fun k => shr_bind shr_mustConsume1 fun _ => shr_bind (shr_parseType n) fun t =>
    shr_bind (shr_mustBeNamed t) fun _ => shr_pure _

theorem loc_parseOperationTypeDefinition (n m : Nat) : Loc m (parseOperationTypeDefinition n) (parseOperationTypeDefinition m) := by
  rw [parseOperationTypeDefinition_eq, parseOperationTypeDefinition_eq]
  exact loc_bind loc_parseOperationType (fun k => shr_bind shr_mustConsume1 fun _ => shr_bind (shr_parseType m) fun t =>
      shr_bind (shr_mustBeNamed t) fun _ => shr_pure _) fun k =>
    loc_bind loc_mustPu (fun _ => shr_bind (shr_parseType m) fun t => shr_bind (shr_mustBeNamed t) fun _ => shr_pure _) fun _ =>
    loc_bind (loc_parseType n m) (fun t => shr_bind (shr_mustBeNamed t) fun _ => shr_pure _) fun t =>
    loc_bind (loc_mustBeNamed t) (fun _ => shr_pure _) fun _ => loc_pure _

theorem parseOperationTypeDefinitions_eq (n : Nat) : parseOperationTypeDefinitions n = mustConsume1 .punctuator b!"{" >>= fun _ =>
    doWhile (parseOperationTypeDefinition n) (orP (peek1 .punctuator b!"}") (peek0 .eof)) >>= fun as => mustConsume1 .punctuator b!"}" >>= fun _ => pure as := by
  unfold parseOperationTypeDefinitions
  rw [skip1_mustConsume]

theorem loc_parseOperationTypeDefinitions (n m : Nat) : Loc m (parseOperationTypeDefinitions n) (parseOperationTypeDefinitions m) := by
  rw [parseOperationTypeDefinitions_eq, parseOperationTypeDefinitions_eq]
  have := shr_parseOperationTypeDefinition m
  exact loc_bind loc_mustPu (fun _ => by shr) fun _ => loc_closed leaves_or (shr_orP shr_peek1 shr_peek0) (loc_parseOperationTypeDefinition n m)
    (progress_parseOperationTypeDefinition n) (progress_parseOperationTypeDefinition m) this

theorem headEats_parseOperationTypeDefinitions (n : Nat) : HeadEats (isTok .punctuator b!"{") (parseOperationTypeDefinitions n) := by
  rw [parseOperationTypeDefinitions_eq]
  have := shr_parseOperationTypeDefinition n
  exact headEats_bind headEats_mustConsume1 (fun _ => by shr)

theorem parseSchemaDefinition_eq (n : Nat) : parseSchemaDefinition pf n = mustConsume1 .name b!"schema" >>= fun _ =>
    parseDirectives pf n .schema >>= fun dirs => parseOperationTypeDefinitions n >>= fun ops => pure ⟨dirs, ops⟩ := by
  unfold parseSchemaDefinition
  rw [skip1_mustConsume]

theorem loc_parseSchemaDefinition (n m : Nat) : Loc m (parseSchemaDefinition pf n) (parseSchemaDefinition pf m) := by
  rw [parseSchemaDefinition_eq, parseSchemaDefinition_eq]
  have := shr_parseOperationTypeDefinitions m; have := shr_parseDirectives pf m .schema
  have := loc_parseOperationTypeDefinitions n m; have := loc_parseDirectives pf n m .schema
  loc

theorem headEats_parseSchemaDefinition (n : Nat) : HeadEats (isTok .name b!"schema") (parseSchemaDefinition pf n) := by
  rw [parseSchemaDefinition_eq]
  have := shr_parseOperationTypeDefinitions n; have := shr_parseDirectives pf n .schema
  exact headEats_bind headEats_mustConsume1 (fun _ => by shr)

/-- The operation types of a schema extension. -/
def optOps (n : Nat) : P (List OpTypeDef) := do
  if ← peek1 .punctuator b!"{" then parseOperationTypeDefinitions n
  else return []

theorem shr_optOps (n : Nat) : Shr (optOps n) := by
  have := shr_parseOperationTypeDefinitions n
  unfold optOps; shr

theorem loc_optOps (n m : Nat) : Loc m (optOps n) (optOps m) := by
  unfold optOps
  rw [peek_branch peeks_peek1, peek_branch peeks_peek1]
  exact loc_branch (loc_parseOperationTypeDefinitions n m) (loc_pure _) (headEats_parseOperationTypeDefinitions n) (headEats_parseOperationTypeDefinitions m)

theorem parseSchemaExtension_eq (n : Nat) : parseSchemaExtension pf n = mustConsume1 .name b!"schema" >>= fun _ =>
    parseDirectives pf n .schema >>= fun dirs => optOps n >>= fun ops =>
      if dirs.length = 0 ∧ ops.length = 0 then unexpectedCur [] else pure ⟨dirs, ops⟩ := by
  unfold parseSchemaExtension
  rw [skip1_mustConsume]
  rfl

theorem loc_parseSchemaExtension (n m : Nat) : Loc m (parseSchemaExtension pf n) (parseSchemaExtension pf m) := by
  rw [parseSchemaExtension_eq, parseSchemaExtension_eq]
  have := shr_optOps m; have := shr_parseDirectives pf m .schema
  have := loc_optOps n m; have := loc_parseDirectives pf n m .schema
  have hu : ∀ {α : Type}, Loc m (unexpectedCur [] : P α) (unexpectedCur []) := loc_unexpectedCur (fun x hx => by cases hx) (by decide)
  refine loc_bind loc_mustNm (fun _ => by shr) fun _ => loc_bind this (fun _ => by shr) fun _ => loc_bind (loc_optOps n m) (fun _ => by shr) fun _ =>
    loc_ite (fun _ => hu) (fun _ => loc_pure _)

theorem headEats_parseSchemaExtension (n : Nat) : HeadEats (isTok .name b!"schema") (parseSchemaExtension pf n) := by
  rw [parseSchemaExtension_eq]
  have := shr_optOps n; have := shr_parseDirectives pf n .schema
  exact headEats_bind headEats_mustConsume1 (fun _ => by shr)

/-! ### Input values and directives -/

theorem parseInputValueDefinition_eq (n : Nat) (l : DirLoc) : parseInputValueDefinition pf n l = consume0 .stringValue >>= fun desc => mustConsume0 .name >>= fun t =>
    mustConsume1 .punctuator b!":" >>= fun _ => parseType n >>= fun ty => parseDefaultValue pf n >>= fun dv => parseDirectives pf n l >>= fun dirs =>
      pure ⟨(desc.map (·.lit)).getD [], t.lit, ty, dirs, dv⟩ := by
  unfold parseInputValueDefinition
  congr 1
  funext desc
  congr 1
  funext t
  rw [skip1_mustConsume]

theorem progress_parseInputValueDefinition (n : Nat) (l : DirLoc) : Progress (parseInputValueDefinition pf n l) := by
  have := shr_parseType n; have := shr_parseDefaultValue pf n; have := shr_parseDirectives pf n l
  rw [parseInputValueDefinition_eq]
  exact progress_right shr_consume0 fun _ => progress_left progress_mustConsume0 fun _ => by shr

theorem loc_parseInputValueDefinition (n m : Nat) (l : DirLoc) : Loc m (parseInputValueDefinition pf n l) (parseInputValueDefinition pf m l) := by
  have := shr_parseType m; have := shr_parseDefaultValue pf m; have := shr_parseDirectives pf m l
  have := loc_parseType n m; have := loc_parseDefaultValue pf n m; have := loc_parseDirectives pf n m l
  rw [parseInputValueDefinition_eq, parseInputValueDefinition_eq]
  loc

theorem loc_parseArgumentsDefinition (n m : Nat) : Loc m (parseArgumentsDefinition pf n) (parseArgumentsDefinition pf m) := by
  have s := shr_parseInputValueDefinition pf m .argumentDefinition
  have hL := loc_closed leaves_or (shr_orP shr_peek1 shr_peek0) (l := b!")") (loc_parseInputValueDefinition pf n m .argumentDefinition)
    (progress_parseInputValueDefinition pf n _) (progress_parseInputValueDefinition pf m _) s
  unfold parseArgumentsDefinition
  loc

theorem loc_parseDirectiveLocations {m : Nat} : Loc m parseDirectiveLocations parseDirectiveLocations := by
  have h : Loc m (mustConsumen .name directiveLocations) (mustConsumen .name directiveLocations) := loc_mustConsumen (by decide) (by decide) (by decide) (by decide)
  have hp : Progress (mustConsumen .name directiveLocations) := mustConsumen_progress (by decide)
  have hL := loc_doWhile h (loc_notP (loc_skip1 (k := .punctuator) (l := b!"|"))) hp hp shr_mustConsumen (shr_notP shr_skip1)
  unfold parseDirectiveLocations
  loc

theorem parseDirectiveDefinition_eq (n : Nat) (desc : Bytes) : parseDirectiveDefinition pf n desc = skip1 .name b!"directive" >>= fun b => if b = true then
    (mustConsume1 .punctuator b!"@" >>= fun _ => mustConsume0 .name >>= fun t => parseArgumentsDefinition pf n >>= fun args =>
      mustConsume1 .name b!"on" >>= fun _ => parseDirectiveLocations >>= fun locs => pure ⟨desc, t.lit, args, locs⟩) else crash := by
  unfold parseDirectiveDefinition
  rw [skip1_mustConsume]
  congr 1
  funext b
  congr 1
  congr 1
  funext _
  congr 1
  funext t
  congr 1
  funext args
  rw [skip1_mustConsume]

theorem loc_parseDirectiveDefinition (n m : Nat) (desc : Bytes) : Loc m (parseDirectiveDefinition pf n desc) (parseDirectiveDefinition pf m desc) := by
  have := shr_parseArgumentsDefinition pf m; have := shr_parseDirectiveLocations
  have := loc_parseArgumentsDefinition pf n m; have := loc_parseDirectiveLocations (m := m)
  rw [parseDirectiveDefinition_eq, parseDirectiveDefinition_eq]
  loc

theorem headEats_parseDirectiveDefinition (n : Nat) (desc : Bytes) : HeadEats (isTok .name b!"directive") (parseDirectiveDefinition pf n desc) := by
  have := shr_parseArgumentsDefinition pf n; have := shr_parseDirectiveLocations
  rw [parseDirectiveDefinition_eq]
  exact headEats_bind headEats_skip1 (fun _ => by shr)

/-! ### Types -/

theorem loc_parseImplementsInterfaces (n m : Nat) : Loc m (parseImplementsInterfaces n) (parseImplementsInterfaces m) := by
  have s := shr_parseType m
  have hL := loc_doWhile (loc_parseType n m) (loc_notP (loc_skip1 (k := .punctuator) (l := b!"&"))) (parseType_progress n) (parseType_progress m)
    (shr_parseType m) (shr_notP shr_skip1)
  unfold parseImplementsInterfaces
  loc

theorem headEats_parseImplementsInterfaces (n : Nat) : HeadEats (isTok .name b!"implements") (parseImplementsInterfaces n) := by
  have s := shr_parseType n
  unfold parseImplementsInterfaces
  exact headEats_bind headEats_skip1 (fun _ => by shr)

theorem loc_parseUnionMemberTypes (n m : Nat) : Loc m (parseUnionMemberTypes n) (parseUnionMemberTypes m) := by
  have s := shr_parseType m
  have hL := loc_doWhile (loc_parseType n m) (loc_notP (loc_skip1 (k := .punctuator) (l := b!"|"))) (parseType_progress n) (parseType_progress m)
    (shr_parseType m) (shr_notP shr_skip1)
  unfold parseUnionMemberTypes
  loc

/-- One field definition. -/
def fieldEntry (n : Nat) : P FieldDef := consume0 .stringValue >>= fun desc => mustConsume0 .name >>= fun t => parseArgumentsDefinition pf n >>= fun args =>
  mustConsume1 .punctuator b!":" >>= fun _ => parseType n >>= fun ty => parseDirectives pf n .fieldDefinition >>= fun dirs =>
    pure ⟨(desc.map (·.lit)).getD [], t.lit, args, ty, dirs⟩

theorem parseFieldsDefinition_eq (n : Nat) : parseFieldsDefinition pf n = skip1 .punctuator b!"{" >>= fun b => if b = true then
    doWhile (fieldEntry pf n) (skip1 .punctuator b!"}") else pure [] := by
  unfold parseFieldsDefinition fieldEntry
  congr 1
  funext b
  congr 2
  congr 1
  funext desc
  congr 1
  funext t
  congr 1
  funext args
  rw [skip1_mustConsume]

theorem loc_parseFieldsDefinition (n m : Nat) : Loc m (parseFieldsDefinition pf n) (parseFieldsDefinition pf m) := by
  have := shr_parseType m; have := shr_parseArgumentsDefinition pf m; have := shr_parseDirectives pf m .fieldDefinition
  have := shr_parseType n; have := shr_parseArgumentsDefinition pf n; have := shr_parseDirectives pf n .fieldDefinition
  have := loc_parseType n m; have := loc_parseArgumentsDefinition pf n m; have := loc_parseDirectives pf n m .fieldDefinition
  have hl : Loc m (fieldEntry pf n) (fieldEntry pf m) := by unfold fieldEntry; loc
  have sm : Shr (fieldEntry pf m) := by unfold fieldEntry; shr
  have pn : Progress (fieldEntry pf n) := progress_right shr_consume0 fun _ => progress_left progress_mustConsume0 fun _ => by shr
  have pm : Progress (fieldEntry pf m) := progress_right shr_consume0 fun _ => progress_left progress_mustConsume0 fun _ => by shr
  have hL := loc_doWhile hl (loc_skip1 (k := .punctuator) (l := b!"}")) pn pm sm shr_skip1
  rw [parseFieldsDefinition_eq, parseFieldsDefinition_eq]
  loc

/-- What may not be an enum value. -/
def isReserved (t : Token) : Bool := decide (t.kind = .name ∧ (t.lit = b!"false" ∨ t.lit = b!"true" ∨ t.lit = b!"null"))

/-- The error for it. -/
def enumFail (t : Token) : P EnumVal := fail (.unexpected t [expected .name [b!"valid enum value"]])

/-- The rest of an enum value definition. -/
def enumRest (n : Nat) (desc : Option Token) (t : Token) : P EnumVal :=
  parseDirectives pf n .enumValue >>= fun dirs => pure ⟨(desc.map (·.lit)).getD [], dirs, t.lit⟩

/-- One enum value definition. -/
def enumEntry (n : Nat) : P EnumVal := consume0 .stringValue >>= fun desc => mustConsume0 .name >>= fun t =>
  if t.lit = b!"false" ∨ t.lit = b!"true" ∨ t.lit = b!"null" then enumFail t else enumRest pf n desc t

theorem enumEntry_branch (n : Nat) : enumEntry pf n = consume0 .stringValue >>= fun desc => branch isReserved (took >>= enumFail)
    (mustConsume0 .name >>= fun t => if t.lit = b!"false" ∨ t.lit = b!"true" ∨ t.lit = b!"null" then crash else enumRest pf n desc t) := by
  unfold enumEntry
  congr 1
  funext desc ts
  by_cases h : isReserved (hd ts) = true
  · rw [branch_pos h]
    have h' := of_decide_eq_true h
    cases ts with
    | nil => exact absurd h'.1 (by simp [hd])
    | cons t r =>
      rw [bind_eq (mustConsume0_eq (t := t) (ts := r) h'.1), if_pos (show t.lit = _ ∨ t.lit = _ ∨ t.lit = _ from h'.2)]
      rfl
  · rw [branch_neg h]
    refine bind_congr' (fun t r e => ?_)
    obtain ⟨h1, h2⟩ := (mustConsume0_ok (by decide)).1 e
    subst h1
    have : ¬ (t.lit = b!"false" ∨ t.lit = b!"true" ∨ t.lit = b!"null") := fun h3 => h (decide_eq_true ⟨h2, h3⟩)
    rw [if_neg this, if_neg this]

theorem loc_parseEnumValuesDefinition (n m : Nat) : Loc m (parseEnumValuesDefinition pf n) (parseEnumValuesDefinition pf m) := by
  have s1 := shr_parseDirectives pf m .enumValue
  have s1' := shr_parseDirectives pf n .enumValue
  have h1 := loc_parseDirectives pf n m .enumValue
  have sf : ∀ t, Shr (enumFail t) := fun t => shr_fail _
  have sr : ∀ n, Shr (parseDirectives pf n .enumValue) → ∀ d t, Shr (enumRest pf n d t) := fun n _ d t => by unfold enumRest; shr
  have srm := sr m s1; have srn := sr n s1'
  have hl : Loc m (enumEntry pf n) (enumEntry pf m) := by
    rw [enumEntry_branch, enumEntry_branch]
    refine loc_bind loc_consume0 (fun d => shr_branch (shr_bind shr_took sf) (shr_bind shr_mustConsume0 fun t => shr_ite shr_crash (srm d t))) (fun d => ?_)
    intro ts ht
    refine locX_branch (fun h => ?_) (fun _ => ?_) (headEats_took sf) (headEats_took sf) ht
    · have h' := of_decide_eq_true h
      exact locAt_took_fail (E := .unexpected (hd ts) [expected .name [b!"valid enum value"]]) ht ⟨by rw [h'.1]; decide, by rw [h'.1]; decide⟩ rfl
        ⟨rfl, h'.1, h'.2, rfl⟩
    · refine LocAtX.weaken (loc_bind loc_mustConsume0 (fun t => shr_ite shr_crash (srm d t)) (fun t => loc_ite (fun _ => loc_crash) (fun _ => ?_)) ts ht)
      unfold enumRest; loc
  have pr : ∀ n, (∀ d t, Shr (enumRest pf n d t)) → Progress (enumEntry pf n) := fun n sr =>
    progress_right shr_consume0 fun d => progress_left progress_mustConsume0 fun t => shr_ite (sf t) (sr d t)
  have sm : Shr (enumEntry pf m) := shr_bind shr_consume0 fun d => shr_bind shr_mustConsume0 fun t => shr_ite (sf t) (srm d t)
  have hL := loc_doWhile hl (loc_skip1 (k := .punctuator) (l := b!"}")) (pr n srn) (pr m srm) sm shr_skip1
  show Loc m (skip1 .punctuator b!"{" >>= fun b => if b = true then doWhile (enumEntry pf n) (skip1 .punctuator b!"}") else pure [])
    (skip1 .punctuator b!"{" >>= fun b => if b = true then doWhile (enumEntry pf m) (skip1 .punctuator b!"}") else pure [])
  loc

theorem loc_parseInputFieldsDefinition (n m : Nat) : Loc m (parseInputFieldsDefinition pf n) (parseInputFieldsDefinition pf m) := by
  have s := shr_parseInputValueDefinition pf m .inputFieldDefinition
  have hL := loc_doWhile (loc_parseInputValueDefinition pf n m .inputFieldDefinition) (loc_skip1 (k := .punctuator) (l := b!"}"))
    (progress_parseInputValueDefinition pf n _) (progress_parseInputValueDefinition pf m _) s shr_skip1
  unfold parseInputFieldsDefinition
  loc

theorem loc_parseTypeBody (n m : Nat) (desc : Bytes) (k : TypeKind) : Loc m (parseTypeBody pf n desc k) (parseTypeBody pf m desc k) := by
  have h0 := fun l => loc_parseDirectives pf n m l
  have h1 := loc_parseImplementsInterfaces n m; have h2 := loc_parseFieldsDefinition pf n m; have h3 := loc_parseUnionMemberTypes n m
  have h4 := loc_parseEnumValuesDefinition pf n m; have h5 := loc_parseInputFieldsDefinition pf n m
  have s0 := fun l => shr_parseDirectives pf m l
  have s1 := shr_parseImplementsInterfaces m; have s2 := shr_parseFieldsDefinition pf m; have s3 := shr_parseUnionMemberTypes m
  have s4 := shr_parseEnumValuesDefinition pf m; have s5 := shr_parseInputFieldsDefinition pf m
  unfold parseTypeBody
  cases k with
  | scalar => have := s0 .scalar; have := h0 .scalar; dsimp only; loc
  | object => have := s0 .object; have := h0 .object; dsimp only; loc
  | interface => have := s0 .interface; have := h0 .interface; dsimp only; loc
  | union => have := s0 .union; have := h0 .union; dsimp only; loc
  | enum => have := s0 .enum; have := h0 .enum; dsimp only; loc
  | inputObject => have := s0 .inputObject; have := h0 .inputObject; dsimp only; loc

theorem loc_parseTypeDefinition (n m : Nat) (desc : Bytes) : Loc m (parseTypeDefinition pf n desc) (parseTypeDefinition pf m desc) := by
  unfold parseTypeDefinition
  refine loc_bind loc_mustConsume0 (fun t => ?_) (fun t => ?_)
  · cases kindOf t.lit with
    | none => exact shr_crash
    | some k => exact shr_parseTypeBody pf m desc k
  · cases kindOf t.lit with
    | none => exact loc_crash
    | some k => exact loc_parseTypeBody pf n m desc k

theorem headEats_parseTypeDefinition (n : Nat) (desc : Bytes) : HeadEats (isOneOf typeKeywords) (parseTypeDefinition pf n desc) := by
  unfold parseTypeDefinition
  refine headEats_bind (headEats_mustConsume0 (fun t h => (isOneOf_iff.1 h).1)) (fun t => ?_)
  cases kindOf t.lit with
  | none => exact shr_crash
  | some k => exact shr_parseTypeBody pf n desc k

/-- The interfaces of a type extension. -/
def optImplements (n : Nat) (kt : Token) : P (List Ty) := do
  if kt.lit = b!"type" then
    if ← peek1 .name b!"implements" then parseImplementsInterfaces n
    else return []
  else return []

theorem shr_optImplements (n : Nat) (kt : Token) : Shr (optImplements n kt) := by
  have := shr_parseImplementsInterfaces n
  unfold optImplements; shr

theorem loc_optImplements (n m : Nat) (kt : Token) : Loc m (optImplements n kt) (optImplements m kt) := by
  unfold optImplements
  refine loc_ite (fun _ => ?_) (fun _ => loc_pure _)
  rw [peek_branch peeks_peek1, peek_branch peeks_peek1]
  exact loc_branch (loc_parseImplementsInterfaces n m) (loc_pure _) (headEats_parseImplementsInterfaces n) (headEats_parseImplementsInterfaces m)

/-- The rest of a type extension. -/
def extRest (n : Nat) (kt t : Token) (ifaces : List Ty) : P TypeDef :=
  match kindOf kt.lit with
  | none => crash
  | some .scalar => parseDirectives pf n .scalar >>= fun dirs => pure { name := t.lit, kind := .scalar, ifaces, dirs }
  | some .object => parseDirectives pf n .object >>= fun dirs => parseFieldsDefinition pf n >>= fun fields =>
    pure { name := t.lit, kind := .object, ifaces, dirs, fields }
  | some .interface => parseDirectives pf n .interface >>= fun dirs => parseFieldsDefinition pf n >>= fun fields =>
    pure { name := t.lit, kind := .interface, ifaces, dirs, fields }
  | some .union => parseDirectives pf n .union >>= fun dirs => parseUnionMemberTypes n >>= fun members =>
    pure { name := t.lit, kind := .union, ifaces, dirs, members }
  | some .enum => parseDirectives pf n .enum >>= fun dirs => parseEnumValuesDefinition pf n >>= fun values =>
    pure { name := t.lit, kind := .enum, ifaces, dirs, values }
  | some .inputObject => parseDirectives pf n .inputObject >>= fun dirs => parseInputFieldsDefinition pf n >>= fun inputs =>
    pure { name := t.lit, kind := .inputObject, ifaces, dirs, inputs }

theorem parseTypeExtension_eq (n : Nat) : parseTypeExtension pf n = mustConsume0 .name >>= fun kt => mustConsume0 .name >>= fun t =>
    optImplements n kt >>= fun ifaces => extRest pf n kt t ifaces := by
  unfold parseTypeExtension extRest
  congr 1

theorem shr_extRest (n : Nat) (kt t : Token) (ifaces : List Ty) : Shr (extRest pf n kt t ifaces) := by
  have s2 := shr_parseFieldsDefinition pf n; have s3 := shr_parseUnionMemberTypes n
  have s4 := shr_parseEnumValuesDefinition pf n; have s5 := shr_parseInputFieldsDefinition pf n
  unfold extRest
  cases kindOf kt.lit with
  | none => exact shr_crash
  | some k => cases k <;> dsimp only <;> repeat (first | assumption | exact shr_pure _ | apply shr_bind | exact shr_parseDirectives pf n _ | intro _)

theorem loc_parseTypeExtension (n m : Nat) : Loc m (parseTypeExtension pf n) (parseTypeExtension pf m) := by
  rw [parseTypeExtension_eq, parseTypeExtension_eq]
  have so := fun kt => shr_optImplements m kt
  have se := fun kt t i => shr_extRest pf m kt t i
  refine loc_bind loc_mustConsume0 (fun kt => shr_bind shr_mustConsume0 fun t => shr_bind (so kt) fun i => se kt t i) (fun kt => ?_)
  refine loc_bind loc_mustConsume0 (fun t => shr_bind (so kt) fun i => se kt t i) (fun t => ?_)
  refine loc_bind (loc_optImplements n m kt) (fun i => se kt t i) (fun i => ?_)
  have h0 := fun l => loc_parseDirectives pf n m l
  have h2 := loc_parseFieldsDefinition pf n m; have h3 := loc_parseUnionMemberTypes n m
  have h4 := loc_parseEnumValuesDefinition pf n m; have h5 := loc_parseInputFieldsDefinition pf n m
  have s0 := fun l => shr_parseDirectives pf m l
  have s2 := shr_parseFieldsDefinition pf m; have s3 := shr_parseUnionMemberTypes m
  have s4 := shr_parseEnumValuesDefinition pf m; have s5 := shr_parseInputFieldsDefinition pf m
  unfold extRest
  cases kindOf kt.lit with
  | none => exact loc_crash
  | some k =>
    cases k with
    | scalar => have := s0 .scalar; have := h0 .scalar; dsimp only; loc
    | object => have := s0 .object; have := h0 .object; dsimp only; loc
    | interface => have := s0 .interface; have := h0 .interface; dsimp only; loc
    | union => have := s0 .union; have := h0 .union; dsimp only; loc
    | enum => have := s0 .enum; have := h0 .enum; dsimp only; loc
    | inputObject => have := s0 .inputObject; have := h0 .inputObject; dsimp only; loc

theorem headEats_parseTypeExtension (n : Nat) : HeadEats (isOneOf typeKeywords) (parseTypeExtension pf n) := by
  rw [parseTypeExtension_eq]
  exact headEats_bind (headEats_mustConsume0 (fun t h => (isOneOf_iff.1 h).1))
    (fun kt => shr_bind shr_mustConsume0 fun t => shr_bind (shr_optImplements n kt) fun i => shr_extRest pf n kt t i)

end

end GQL

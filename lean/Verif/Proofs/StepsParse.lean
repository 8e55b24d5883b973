/-
Every function of the parser of Model/Steps returns what its twin in Model/Parser returns, and the steps it makes.
-/
import Verif.Proofs.Steps

namespace GQL

/-- One step through a parser function and its twin. -/
macro "sim_step" : tactic => `(tactic| first
  | exact sim_fail (by omega) | exact sim_crash (by omega) | exact sim_oof | exact sim_unexpected _ (by omega)
  | exact sim_pure (by omega)
  | exact SimV.mono (by assumption) (fun _ => by omega) (by omega)
  | (refine sim_skip (by decide) (by decide) ?_ ?_)
  | (refine sim_opt (by first | exact sim_consume0 (by decide) (by decide) | exact sim_consumen _ (by decide) (by decide)) ?_ ?_; (intro t; try dsimp only); (try dsimp only))
  | (refine sim_curc ?_; intro t; try dsimp only)
  | (refine sim_bind (by first
      | exact sim_peek1 (e := -1000) _ _ | exact sim_peekn (e := -1000) _ _ | exact sim_peek0 (e := -1000) _
      | exact sim_mustConsume0 (by decide) (by decide) | exact sim_mustConsume1 _ (by decide) (by decide) | exact sim_mustConsumen _ (by decide) (by decide)
      | exact sim_skipe (e := -1000) _ (by decide) (by decide) | exact sim_two (e := -1000) _ _ _ | exact sim_three (e := -1000) _ _ _ _
      | assumption) (by omega) ?_; intro a; try dsimp only)
  | (refine sim_ite (fun _ => ?_) (fun _ => ?_)))

section
variable {inp : Bytes} {N : Nat} (pf : Bytes → Option Nat)

theorem parseValueS_sim (n : Nat) : Sim1 inp N (-14) 10 (parseValueS pf n) (parseValue pf n) := by
  induction n with
  | zero => exact sim_oof
  | succ n ih =>
    unfold parseValueS parseValue
    repeat' sim_step
    · rename_i t
      cases atoi t.lit with
      | none => exact sim_fail (by omega)
      | some i => exact sim_pure (by omega)
    · rename_i t
      cases pf t.lit with
      | none => exact sim_fail (by omega)
      | some i => exact sim_pure (by omega)
    · refine sim_bind (sim_until (o := -14) (e := 10) (E := 11) _ (by decide) (by decide) ih (by omega) (by omega)) (by omega) fun _ => ?_
      sim_step
    · refine sim_bind (sim_until (o := -14) (e := 10) (E := 11) _ (by decide) (by decide) ?_ (by omega) (by omega)) (by omega) fun _ => ?_
      · repeat' sim_step
      · sim_step

theorem parseDefaultValueS_sim (n : Nat) : Sim1 inp N 1 1 (parseDefaultValueS pf n) (parseDefaultValue pf n) := by
  have h := parseValueS_sim (inp := inp) (N := N) pf n
  unfold parseDefaultValueS parseDefaultValue
  repeat' sim_step

theorem parseArgumentsS_sim (n : Nat) : Sim1 inp N 1 2 (parseArgumentsS pf n) (parseArguments pf n) := by
  have h := parseValueS_sim (inp := inp) (N := N) pf n
  unfold parseArgumentsS parseArguments
  repeat' sim_step
  refine SimV.mono (sim_until (o := -14) (e := 10) (E := 11) _ (by decide) (by decide) ?_ (by omega) (by omega)) (fun _ => by omega) (by omega)
  repeat' sim_step

theorem parseDirectivesS_sim (n : Nat) (loc : DirLoc) : Sim1 inp N 1 2 (parseDirectivesS pf n loc) (parseDirectives pf n loc) := by
  have h := parseArgumentsS_sim (inp := inp) (N := N) pf n
  unfold parseDirectivesS parseDirectives
  refine sim_untilDo (o := -14) (e := 1) (ob := fun _ => 1) (sim_not (sim_peek1 _ _)) ?_ (by omega) (by omega) (by omega)
  repeat' sim_step

theorem parseTypeS_sim (n : Nat) : Sim1 inp N (-20) 2 (parseTypeS n) (parseType n) := by
  induction n with
  | zero => exact sim_oof
  | succ n ih =>
    have k : ∀ a : Ty, Sim1 inp N (-20) 1 (do
            let _ ← mustConsume1S .punctuator b!"]"
            return Ty.list a (← skip1S .punctuator b!"!")) (do
            let _ ← mustConsume1 .punctuator b!"]"
            return Ty.list a (← skip1 .punctuator b!"!")) := by
      intro a
      repeat' sim_step
    unfold parseTypeS parseType
    repeat' sim_step
    intro s ts hf
    have h := ih s ts hf
    dsimp only
    generalize parseTypeS n s = x at h
    generalize parseType n ts = y at h
    cases h with
    | @ok a s1 r h1 h2 h3 h4 => exact (k a s1 r h1).after h2 h3 h4 (fun _ => by omega) (by omega)
    | err h1 h2 h3 h4 => exact .ok h1 h2 h3 (by omega)
    | panic h1 h2 h3 h4 => exact .panic h1 h2 h3 (by omega)
    | oof => exact .oof

theorem mustBeNamedS_sim (t : Ty) : Sim1 inp N 0 1 (mustBeNamedS t) (mustBeNamed t) := by
  unfold mustBeNamedS mustBeNamed
  cases t <;> sim_step

theorem parseTypeConditionS_sim (n : Nat) : Sim1 inp N (-42) 1 (parseTypeConditionS n) (parseTypeCondition n) := by
  have h1 := parseTypeS_sim (inp := inp) (N := N) n
  have h2 := mustBeNamedS_sim (inp := inp) (N := N)
  unfold parseTypeConditionS parseTypeCondition
  repeat' sim_step
  refine sim_bind (h2 _) (by omega) fun _ => ?_
  repeat' sim_step

theorem parseVariableDefinitionsS_sim (n : Nat) : Sim1 inp N 1 2 (parseVariableDefinitionsS pf n) (parseVariableDefinitions pf n) := by
  have h1 := parseTypeS_sim (inp := inp) (N := N) n
  have h2 := parseDefaultValueS_sim (inp := inp) (N := N) pf n
  unfold parseVariableDefinitionsS parseVariableDefinitions
  repeat' sim_step
  refine sim_bind (sim_do (o := -14) (e := 10) (E := 10) ?_ (sim_peek1 _ _) (by omega) (by omega) (by omega)) (by omega) fun _ => ?_
  all_goals repeat' sim_step

theorem parseFragmentSpreadS_sim (n : Nat) : Sim1 inp N (-21) 1 (parseFragmentSpreadS pf n) (parseFragmentSpread pf n) := by
  have h1 := parseDirectivesS_sim (inp := inp) (N := N) pf n .fragmentSpread
  unfold parseFragmentSpreadS parseFragmentSpread
  repeat' sim_step

theorem parseInlineFragmentS_sim (n : Nat) {ss s} (hs : Sim1 inp N (-14) 2 ss s) :
    Sim1 inp N (-12) 4 (parseInlineFragmentS pf n ss) (parseInlineFragment pf n s) := by
  have h1 := parseDirectivesS_sim (inp := inp) (N := N) pf n .inlineFragment
  have h2 := parseTypeConditionS_sim (inp := inp) (N := N) n
  unfold parseInlineFragmentS parseInlineFragment
  refine sim_bind (o := 1) (e := 2) ?_ (by omega) fun _ => ?_
  all_goals repeat' sim_step

theorem parseFieldS_sim (n : Nat) {ss s} (hs : Sim1 inp N 1 2 ss s) : Sim1 inp N (-18) 1 (parseFieldS pf n ss) (parseField pf n s) := by
  have h1 := parseDirectivesS_sim (inp := inp) (N := N) pf n .field
  have h2 := parseArgumentsS_sim (inp := inp) (N := N) pf n
  unfold parseFieldS parseField
  sim_step
  refine sim_bind (o := 1) (e := 2) ?_ (by omega) fun ⟨x, y⟩ => ?_
  all_goals repeat' sim_step

theorem parseSelectionSetS_sim (n : Nat) : Sim1 inp N 1 2 (parseSelectionSetS pf n true) (parseSelectionSet pf n true) ∧
    Sim1 inp N (-14) 2 (parseSelectionSetS pf n false) (parseSelectionSet pf n false) := by
  induction n with
  | zero => exact ⟨sim_oof, sim_oof⟩
  | succ n ih =>
    have h1 := parseFragmentSpreadS_sim (inp := inp) (N := N) pf n
    have h2 := parseInlineFragmentS_sim pf n ih.2
    have h3 := parseFieldS_sim pf n ih.1
    constructor
    · unfold parseSelectionSetS parseSelectionSet
      refine sim_skip (by decide) (by decide) ?_ ?_
      · refine sim_bind (sim_do (o := -17) (e := 6) (E := 10) ?_ (sim_two _ _ _) (by omega) (by omega) (by omega)) (by omega) fun _ => ?_
        all_goals repeat' sim_step
      · exact sim_pure (by omega)
    · unfold parseSelectionSetS parseSelectionSet
      refine sim_skip (by decide) (by decide) ?_ ?_
      · refine sim_bind (sim_do (o := -17) (e := 6) (E := 10) ?_ (sim_two _ _ _) (by omega) (by omega) (by omega)) (by omega) fun _ => ?_
        all_goals repeat' sim_step
      · exact sim_unexpected _ (by omega)

theorem parseOperationTypeS_sim : Sim1 inp N (-21) 2 parseOperationTypeS parseOperationType := by
  unfold parseOperationTypeS parseOperationType
  repeat' sim_step

theorem parseOperationDefinitionS_sim (n : Nat) (sh : Bool) : Sim1 inp N (-14) 2 (parseOperationDefinitionS pf n sh) (parseOperationDefinition pf n sh) := by
  have hsel := (parseSelectionSetS_sim (inp := inp) (N := N) pf n).2
  have hdir := parseDirectivesS_sim (inp := inp) (N := N) pf n
  have h1 := parseOperationTypeS_sim (inp := inp) (N := N)
  have h2 := parseVariableDefinitionsS_sim (inp := inp) (N := N) pf n
  unfold parseOperationDefinitionS parseOperationDefinition
  repeat' sim_step
  all_goals refine sim_bind (hdir _) (by omega) fun _ => ?_
  all_goals repeat' sim_step

theorem parseFragmentDefinitionS_sim (n : Nat) : Sim1 inp N (-14) 2 (parseFragmentDefinitionS pf n) (parseFragmentDefinition pf n) := by
  have hsel := (parseSelectionSetS_sim (inp := inp) (N := N) pf n).2
  have hdir := parseDirectivesS_sim (inp := inp) (N := N) pf n .fragmentDefinition
  have h1 := parseTypeConditionS_sim (inp := inp) (N := N) n
  unfold parseFragmentDefinitionS parseFragmentDefinition
  repeat' sim_step

theorem parseOperationTypeDefinitionS_sim (n : Nat) : Sim1 inp N (-14) 2 (parseOperationTypeDefinitionS n) (parseOperationTypeDefinition n) := by
  have hty := parseTypeS_sim (inp := inp) (N := N) n
  have hnm := mustBeNamedS_sim (inp := inp) (N := N)
  have h1 := parseOperationTypeS_sim (inp := inp) (N := N)
  unfold parseOperationTypeDefinitionS parseOperationTypeDefinition
  repeat' sim_step
  refine sim_bind (hnm _) (by omega) fun _ => ?_
  repeat' sim_step

theorem parseOperationTypeDefinitionsS_sim (n : Nat) : Sim1 inp N (-14) 2 (parseOperationTypeDefinitionsS n) (parseOperationTypeDefinitions n) := by
  have h1 := parseOperationTypeDefinitionS_sim (inp := inp) (N := N) n
  unfold parseOperationTypeDefinitionsS parseOperationTypeDefinitions
  repeat' sim_step
  refine sim_bind (sim_do (o := -14) (e := 2) (E := 10) h1 (sim_two _ _ _) (by omega) (by omega) (by omega)) (by omega) fun _ => ?_
  repeat' sim_step

theorem parseSchemaDefinitionS_sim (n : Nat) : Sim1 inp N (-14) 2 (parseSchemaDefinitionS pf n) (parseSchemaDefinition pf n) := by
  have hdir := parseDirectivesS_sim (inp := inp) (N := N) pf n .schema
  have h1 := parseOperationTypeDefinitionsS_sim (inp := inp) (N := N) n
  unfold parseSchemaDefinitionS parseSchemaDefinition
  repeat' sim_step

theorem parseSchemaExtensionS_sim (n : Nat) : Sim1 inp N (-14) 2 (parseSchemaExtensionS pf n) (parseSchemaExtension pf n) := by
  have hdir := parseDirectivesS_sim (inp := inp) (N := N) pf n .schema
  have h1 := parseOperationTypeDefinitionsS_sim (inp := inp) (N := N) n
  unfold parseSchemaExtensionS parseSchemaExtension
  repeat' sim_step
  refine sim_bind (o := 1) (e := 10) ?_ (by omega) fun _ => ?_
  all_goals repeat' sim_step

theorem parseInputValueDefinitionS_sim (n : Nat) (loc : DirLoc) : Sim1 inp N (-14) 2 (parseInputValueDefinitionS pf n loc) (parseInputValueDefinition pf n loc) := by
  have hty := parseTypeS_sim (inp := inp) (N := N) n
  have hdir := parseDirectivesS_sim (inp := inp) (N := N) pf n loc
  have h1 := parseDefaultValueS_sim (inp := inp) (N := N) pf n
  unfold parseInputValueDefinitionS parseInputValueDefinition
  repeat' sim_step

theorem parseArgumentsDefinitionS_sim (n : Nat) : Sim1 inp N (1) 2 (parseArgumentsDefinitionS pf n) (parseArgumentsDefinition pf n) := by
  have h1 := parseInputValueDefinitionS_sim (inp := inp) (N := N) pf n .argumentDefinition
  unfold parseArgumentsDefinitionS parseArgumentsDefinition
  repeat' sim_step
  refine sim_bind (sim_do (o := -14) (e := 2) (E := 10) h1 (sim_two _ _ _) (by omega) (by omega) (by omega)) (by omega) fun _ => ?_
  repeat' sim_step

theorem parseDirectiveLocationsS_sim : Sim1 inp N (-19) 3 parseDirectiveLocationsS parseDirectiveLocations := by
  unfold parseDirectiveLocationsS parseDirectiveLocations
  sim_step
  refine sim_bind (sim_do_not (o := -21) (e := 2) (E := 2) _ (by decide) (by decide) (sim_mustConsumen _ (by decide) (by decide)) (by omega) (by omega)) (by omega) fun _ => ?_
  repeat' sim_step

theorem parseDirectiveDefinitionS_sim (n : Nat) (desc : Bytes) : Sim1 inp N (-14) 2 (parseDirectiveDefinitionS pf n desc) (parseDirectiveDefinition pf n desc) := by
  have h1 := parseArgumentsDefinitionS_sim (inp := inp) (N := N) pf n
  have h2 := parseDirectiveLocationsS_sim (inp := inp) (N := N)
  unfold parseDirectiveDefinitionS parseDirectiveDefinition
  repeat' sim_step

theorem parseImplementsInterfacesS_sim (n : Nat) : Sim1 inp N (1) 2 (parseImplementsInterfacesS n) (parseImplementsInterfaces n) := by
  have hty := parseTypeS_sim (inp := inp) (N := N) n
  unfold parseImplementsInterfacesS parseImplementsInterfaces
  repeat' sim_step
  exact SimV.mono (sim_do_not (o := -20) (e := 2) (E := 2) _ (by decide) (by decide) hty (by omega) (by omega)) (fun _ => by omega) (by omega)

theorem parseFieldsDefinitionS_sim (n : Nat) : Sim1 inp N (1) 2 (parseFieldsDefinitionS pf n) (parseFieldsDefinition pf n) := by
  have hty := parseTypeS_sim (inp := inp) (N := N) n
  have hdir := parseDirectivesS_sim (inp := inp) (N := N) pf n .fieldDefinition
  have h1 := parseArgumentsDefinitionS_sim (inp := inp) (N := N) pf n
  unfold parseFieldsDefinitionS parseFieldsDefinition
  repeat' sim_step
  refine SimV.mono (sim_do_skip (o := -14) (e := 2) (E := 2) _ (by decide) (by decide) ?_ (by omega) (by omega)) (fun _ => by omega) (by omega)
  repeat' sim_step

theorem parseUnionMemberTypesS_sim (n : Nat) : Sim1 inp N (1) 2 (parseUnionMemberTypesS n) (parseUnionMemberTypes n) := by
  have hty := parseTypeS_sim (inp := inp) (N := N) n
  unfold parseUnionMemberTypesS parseUnionMemberTypes
  repeat' sim_step
  exact SimV.mono (sim_do_not (o := -20) (e := 2) (E := 2) _ (by decide) (by decide) hty (by omega) (by omega)) (fun _ => by omega) (by omega)

theorem parseEnumValuesDefinitionS_sim (n : Nat) : Sim1 inp N (1) 2 (parseEnumValuesDefinitionS pf n) (parseEnumValuesDefinition pf n) := by
  have hdir := parseDirectivesS_sim (inp := inp) (N := N) pf n .enumValue
  unfold parseEnumValuesDefinitionS parseEnumValuesDefinition
  repeat' sim_step
  refine SimV.mono (sim_do_skip (o := -14) (e := 2) (E := 2) _ (by decide) (by decide) ?_ (by omega) (by omega)) (fun _ => by omega) (by omega)
  repeat' sim_step

theorem parseInputFieldsDefinitionS_sim (n : Nat) : Sim1 inp N (1) 2 (parseInputFieldsDefinitionS pf n) (parseInputFieldsDefinition pf n) := by
  have h1 := parseInputValueDefinitionS_sim (inp := inp) (N := N) pf n .inputFieldDefinition
  unfold parseInputFieldsDefinitionS parseInputFieldsDefinition
  repeat' sim_step
  exact SimV.mono (sim_do_skip (o := -14) (e := 2) (E := 2) _ (by decide) (by decide) h1 (by omega) (by omega)) (fun _ => by omega) (by omega)

theorem parseTypeBodyS_sim (n : Nat) (desc : Bytes) (k : TypeKind) : Sim1 inp N (-14) 2 (parseTypeBodyS pf n desc k) (parseTypeBody pf n desc k) := by
  have hdir := parseDirectivesS_sim (inp := inp) (N := N) pf n
  have h1 := parseImplementsInterfacesS_sim (inp := inp) (N := N) n
  have h2 := parseFieldsDefinitionS_sim (inp := inp) (N := N) pf n
  have h3 := parseUnionMemberTypesS_sim (inp := inp) (N := N) n
  have h4 := parseEnumValuesDefinitionS_sim (inp := inp) (N := N) pf n
  have h5 := parseInputFieldsDefinitionS_sim (inp := inp) (N := N) pf n
  unfold parseTypeBodyS parseTypeBody
  sim_step
  cases k <;> dsimp only <;> repeat' first | sim_step | (refine sim_bind (hdir _) (by omega) fun _ => ?_)

theorem parseTypeDefinitionS_sim (n : Nat) (desc : Bytes) : Sim1 inp N (-14) 2 (parseTypeDefinitionS pf n desc) (parseTypeDefinition pf n desc) := by
  have h1 := parseTypeBodyS_sim (inp := inp) (N := N) pf n desc
  unfold parseTypeDefinitionS parseTypeDefinition
  sim_step
  rename_i t
  cases kindOf t.lit with
  | none => exact sim_crash (by omega)
  | some k => exact SimV.mono (h1 k) (fun _ => by omega) (by omega)

theorem parseTypeExtensionS_sim (n : Nat) : Sim1 inp N (-14) 2 (parseTypeExtensionS pf n) (parseTypeExtension pf n) := by
  have hdir := parseDirectivesS_sim (inp := inp) (N := N) pf n
  have h1 := parseImplementsInterfacesS_sim (inp := inp) (N := N) n
  have h2 := parseFieldsDefinitionS_sim (inp := inp) (N := N) pf n
  have h3 := parseUnionMemberTypesS_sim (inp := inp) (N := N) n
  have h4 := parseEnumValuesDefinitionS_sim (inp := inp) (N := N) pf n
  have h5 := parseInputFieldsDefinitionS_sim (inp := inp) (N := N) pf n
  unfold parseTypeExtensionS parseTypeExtension
  sim_step
  sim_step
  refine sim_bind (o := 2) (e := 10) ?_ (by omega) fun _ => ?_
  · repeat' sim_step
  · rename_i t _ _
    cases kindOf t.lit with
    | none => exact sim_crash (by omega)
    | some k => cases k <;> dsimp only <;> repeat' first | sim_step | (refine sim_bind (hdir _) (by omega) fun _ => ?_)

theorem parseTypeSystemDefinitionS_sim (n : Nat) (desc : Bytes) : Sim1 inp N (-11) 5 (parseTypeSystemDefinitionS pf n desc) (parseTypeSystemDefinition pf n desc) := by
  have h1 := parseSchemaDefinitionS_sim (inp := inp) (N := N) pf n
  have h2 := parseDirectiveDefinitionS_sim (inp := inp) (N := N) pf n desc
  have h3 := parseTypeDefinitionS_sim (inp := inp) (N := N) pf n desc
  unfold parseTypeSystemDefinitionS parseTypeSystemDefinition
  repeat' sim_step

theorem parseTypeSystemExtensionS_sim (n : Nat) : Sim1 inp N (-14) 2 (parseTypeSystemExtensionS pf n) (parseTypeSystemExtension pf n) := by
  have h1 := parseSchemaExtensionS_sim (inp := inp) (N := N) pf n
  have h2 := parseTypeExtensionS_sim (inp := inp) (N := N) pf n
  unfold parseTypeSystemExtensionS parseTypeSystemExtension
  repeat' sim_step

theorem parseDefinitionBodyS_sim (n : Nat) : Sim1 inp N (-4) 12 (parseDefinitionBodyS pf n) (parseDefinitionBody pf n) := by
  have h1 := parseOperationDefinitionS_sim (inp := inp) (N := N) pf n
  have h2 := parseFragmentDefinitionS_sim (inp := inp) (N := N) pf n
  have h3 := parseTypeSystemExtensionS_sim (inp := inp) (N := N) pf n
  have h4 := parseTypeSystemDefinitionS_sim (inp := inp) (N := N) pf n
  unfold parseDefinitionBodyS parseDefinitionBody
  repeat' first | exact SimV.mono (h4 _) (fun _ => by omega) (by omega) | sim_step | (refine sim_bind (h1 _) (by omega) fun _ => ?_)

theorem parseDefinitionS_sim (n : Nat) : Sim1 inp N (-3) 13 (parseDefinitionS pf n) (parseDefinition pf n) := by
  have h1 := parseDefinitionBodyS_sim (inp := inp) (N := N) pf n
  unfold parseDefinitionS parseDefinition
  repeat' sim_step

theorem parseDefsS_sim (n : Nat) : Sim1 inp N (-1) 13 (parseDefsS pf n) (parseDefs pf n) := by
  have h1 := parseDefinitionS_sim (inp := inp) (N := N) pf n
  unfold parseDefsS parseDefs
  refine SimV.mono (sim_do (o := -2) (e := 13) (E := 13) ?_ (sim_peek0 _) (by omega) (by omega) (by omega)) (fun _ => by omega) (by omega)
  repeat' sim_step

end

end GQL

/-
The model's messages are those of the specification.
-/
import Verif.Spec.Messages

namespace GQL
open Spec

theorem place_eq (l : DirLoc) : Says.place l = l.name := by cases l <;> rfl
theorem place_fun : Says.place = DirLoc.name := funext place_eq
theorem kind_eq (k : TypeKind) : Says.kind k = k.str := by cases k <;> rfl
theorem operation_eq (k : OpKind) : Says.operation k = k.str := by cases k <;> rfl
theorem reference_eq (t : Ty) : Says.reference t = t.str := by
  induction t with
  | named n b => cases b <;> simp [Says.reference, Ty.str, nonNullable]
  | list t b ih => cases b <;> simp [Says.reference, Ty.str, nonNullable, ih]
  | listNil b => cases b <;> simp [Says.reference, Ty.str, nonNullable]

theorem says_only : Says.only = newError := rfl
theorem says_notExecutable : Says.notExecutable = nonExecutableDefinitionError := rfl
theorem says_notAlone : Says.notAlone = anonOperationNotAloneError := rfl
theorem says_unknownType : Says.unknownType = unknownTypeError := rfl
theorem says_unusedVariable : Says.unusedVariable = unusedVariableError := by
  funext v o
  unfold Says.unusedVariable unusedVariableError unusedVariableMessage
  cases o with
  | nil => simp [Says.only, newError]
  | cons a as => simp [Says.only, newError]
theorem says_unknownDirective : Says.unknownDirective = unknownDirectiveError := rfl
theorem says_misplacedDirective : Says.misplacedDirective = misplacedDirectiveError := by
  funext n l; unfold Says.misplacedDirective; rw [place_eq]; rfl
theorem says_repeatedDirective : Says.repeatedDirective = duplicateDirectiveError := rfl
theorem says_repeatedArgument : Says.repeatedArgument = duplicateArgError := rfl
theorem says_repeatedInputField : Says.repeatedInputField = duplicateInputFieldError := rfl
theorem says_existingType : Says.existingType = existedTypeNameError := rfl
theorem says_repeatedType : Says.repeatedType = duplicateTypeNameError := rfl
theorem says_existingDirective : Says.existingDirective = existedDirectiveNameError := rfl
theorem says_repeatedDirectiveName : Says.repeatedDirectiveName = duplicateDirectiveNameError := rfl
theorem says_schemaInExtension : Says.schemaInExtension = canNotDefineSchemaWithinExtensionError := rfl
theorem says_repeatedSchema : Says.repeatedSchema = schemaDefinitionNotAloneError := rfl
theorem says_unknownArgument : Says.unknownArgument = unknownDirectiveArgError := rfl
theorem says_missingArgument (d a : Bytes) (t : Ty) : Says.missingArgument d a t = missingDirectiveArgError d a t.str := by
  unfold Says.missingArgument; rw [reference_eq]; rfl
theorem says_extendsUnknown : Says.extendsUnknown = extendingUnknownTypeError := rfl
theorem says_extendsOther (n : Bytes) (k : TypeKind) : Says.extendsOther n k = extendingDifferentTypeKindError n k.str := by
  unfold Says.extendsOther; rw [kind_eq]; rfl
theorem says_twoUnderscores : Says.twoUnderscores = nameStartsWithTwoUnderscoresError := rfl
theorem says_existingRoot (o : OpKind) : Says.existingRoot o = existedOperationTypeError o.str := by
  unfold Says.existingRoot; rw [operation_eq]; rfl
theorem says_repeatedRoot (o : OpKind) : Says.repeatedRoot o = duplicateOperationTypeError o.str := by
  unfold Says.repeatedRoot; rw [operation_eq]; rfl
theorem says_reservedName : Says.reservedName = reservedNameError := rfl
theorem says_invalidName : Says.invalidName = invalidNameError := rfl

end GQL

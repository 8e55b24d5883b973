/-
C73: Types are classified by the kind of what they name.

validation/utils.go offers `IsInputType`, `IsOutputType`, `IsObjectType`, `IsInterfaceType`, `IsUnionType`, `IsAbstractType`, `IsUnionMemberType` and
`PossibleTypes`.  `Spec.innerName t` is the name at the bottom of the list brackets of `t` (`none` for a list type that has lost its item type), and
`Spec.IsKind s n k` says that `s` has a type named `n` and that it is of kind `k`: Spec/Schema.lean.
-/
import Verif.Proofs.Subtype

namespace GQL
open Classical

/-- `IsInputType`: whatever the brackets and exclamation marks, it answers whether the innermost name is that of a scalar, an enumeration or an input object;
and it panics exactly on a list type that has lost its item type. -/
theorem C73_input (s : Schema) (t : Ty) :
    (isInputType s t = .panic ↔ Spec.innerName t = none) ∧
    (isInputType s t = .ret true ↔ ∃ n, Spec.innerName t = some n ∧ (Spec.IsKind s n .scalar ∨ Spec.IsKind s n .enum ∨ Spec.IsKind s n .inputObject)) ∧
    (isInputType s t = .ret false ↔
      ∃ n, Spec.innerName t = some n ∧ ¬ (Spec.IsKind s n .scalar ∨ Spec.IsKind s n .enum ∨ Spec.IsKind s n .inputObject)) := by
  obtain ⟨h1, h2⟩ := isInputType_spec s t
  cases e : Spec.innerName t with
  | none => rw [h2 e]; simp
  | some n =>
    rw [h1 (by rw [e]; rfl)]
    unfold Spec.InputType
    rw [e]
    simp

/-- `IsOutputType`: the same for scalars, objects, interfaces, unions and enumerations. -/
theorem C73_output (s : Schema) (t : Ty) :
    (isOutputType s t = .panic ↔ Spec.innerName t = none) ∧
    (isOutputType s t = .ret true ↔ ∃ n, Spec.innerName t = some n ∧
      (Spec.IsKind s n .scalar ∨ Spec.IsKind s n .object ∨ Spec.IsKind s n .interface ∨ Spec.IsKind s n .union ∨ Spec.IsKind s n .enum)) ∧
    (isOutputType s t = .ret false ↔ ∃ n, Spec.innerName t = some n ∧
      ¬ (Spec.IsKind s n .scalar ∨ Spec.IsKind s n .object ∨ Spec.IsKind s n .interface ∨ Spec.IsKind s n .union ∨ Spec.IsKind s n .enum)) := by
  obtain ⟨h1, h2⟩ := isOutputType_spec s t
  cases e : Spec.innerName t with
  | none => rw [h2 e]; simp
  | some n =>
    rw [h1 (by rw [e]; rfl)]
    unfold Spec.OutputType
    rw [e]
    simp

/-- A type whose innermost name the schema knows is an input type or an output type, and both just when it names a scalar or an enumeration; a type whose
innermost name it does not know is neither. -/
theorem C73_sorts (s : Schema) (t : Ty) (n : Bytes) (hn : Spec.innerName t = some n) :
    (isInputType s t = .ret true ∨ isOutputType s t = .ret true ↔ (s.types.lookup n).isSome) ∧
    (isInputType s t = .ret true ∧ isOutputType s t = .ret true ↔ Spec.IsKind s n .scalar ∨ Spec.IsKind s n .enum) := by
  rw [(C73_input s t).2.1, (C73_output s t).2.1, hn]
  simp only [Option.some.injEq, exists_eq_left', ← kindOf_iff, Schema.kindOf]
  cases h : s.types.lookup n with
  | none => simp
  | some d => simp only [Option.map_some, Option.some.injEq, Option.isSome_some]; cases d.kind <;> simp

/-- `IsObjectType`, `IsInterfaceType`, `IsUnionType` and `IsAbstractType` answer for the name the type itself carries: for a type that is not a list, its
name, whether it has an exclamation mark or not; and no list type passes any of them. -/
theorem C73_kinds (s : Schema) (hs : Spec.WellFormed s) (t : Ty) :
    (isObjectType s t = true ↔ ∃ n x, t = .named n x ∧ Spec.IsKind s n .object) ∧
    (isInterfaceType s t = true ↔ ∃ n x, t = .named n x ∧ Spec.IsKind s n .interface) ∧
    (isUnionType s t = true ↔ ∃ n x, t = .named n x ∧ Spec.IsKind s n .union) ∧
    (isAbstractType s t = true ↔ ∃ n x, t = .named n x ∧ (Spec.IsKind s n .interface ∨ Spec.IsKind s n .union)) := by
  have hl : ∀ k, ¬ Spec.IsKind s [] k := by
    rintro k ⟨d, hd, _⟩
    rw [hs.named] at hd
    cases hd
  unfold isAbstractType
  rw [Bool.or_eq_true, isObjectType_iff, isInterfaceType_iff, isUnionType_iff]
  cases t with
  | named n x => simp [Spec.tyName]
  | list u x => simp [Spec.tyName, hl]
  | listNil x => simp [Spec.tyName, hl]

/-- `IsUnionMemberType` accepts exactly the bare names of object types: no exclamation mark, no list. -/
theorem C73_member (s : Schema) (t : Ty) : isUnionMemberType s t = true ↔ ∃ n, t = .named n false ∧ Spec.IsKind s n .object := by
  unfold isUnionMemberType
  cases t with
  | named n x =>
    cases x with
    | true => simp [Ty.nonNull]
    | false =>
      simp only [Ty.nonNull, Ty.isList, Ty.namedType, Bool.false_eq_true, if_false, ← kindOf_iff, Ty.named.injEq, and_true, exists_eq_left']
      split <;> rename_i h <;> rw [h] <;> simp
  | list u x => cases x <;> simp [Ty.nonNull, Ty.isList]
  | listNil x => cases x <;> simp [Ty.nonNull, Ty.isList]

/-- `PossibleTypes` of a union or an interface `m` names the object type `n` exactly when `n` is a member of the union `m` or implements the interface `m`. -/
theorem C73_possible (ord : Order TypeDef) (s : Schema) (hs : (s.types.map (·.1)).Nodup) (m n : Bytes) (x : Bool) (ho : Spec.IsKind s n .object)
    (ha : Spec.IsKind s m .interface ∨ Spec.IsKind s m .union) :
    Ty.named n false ∈ possibleTypes ord s (.named m x) ↔
      ∃ d t, s.types.lookup m = some d ∧ s.types.lookup n = some t ∧
        ((d.kind = .union ∧ .named n false ∈ d.members) ∨ (d.kind = .interface ∧ ∃ i ∈ t.ifaces, Spec.tyName i = m)) := by
  rw [possibleTypes_spec ord s hs m n x ho ha]
  unfold Spec.PossibleType
  constructor
  · rintro ⟨d, t, h1, h2, _, h⟩
    exact ⟨d, t, h1, h2, h⟩
  · rintro ⟨d, t, h1, h2, h⟩
    obtain ⟨t', h3, h4⟩ := ho
    rw [h2] at h3
    cases h3
    exact ⟨d, t, h1, h2, h4, h⟩

/-! ### A schema with a type of each kind

`interface I`, `type A implements I`, `union U = A`, `enum E`, `input P`, `scalar S`. -/

def kindsSchema : Schema :=
  { types := [
      (b!"I", ⟨[], b!"I", .interface, [], [], [], [], [], []⟩),
      (b!"A", ⟨[], b!"A", .object, [.named b!"I" false], [], [], [], [], []⟩),
      (b!"U", ⟨[], b!"U", .union, [], [], [], [.named b!"A" false], [], []⟩),
      (b!"E", ⟨[], b!"E", .enum, [], [], [], [], [], []⟩),
      (b!"P", ⟨[], b!"P", .inputObject, [], [], [], [], [], []⟩),
      (b!"S", ⟨[], b!"S", .scalar, [], [], [], [], [], []⟩)] }

example : isInputType kindsSchema (.list (.named b!"P" true) false) = .ret true ∧ isOutputType kindsSchema (.list (.named b!"P" true) false) = .ret false ∧
    isInputType kindsSchema (.named b!"E" true) = .ret true ∧ isOutputType kindsSchema (.named b!"E" true) = .ret true ∧
    isInputType kindsSchema (.named b!"X" true) = .ret false ∧ isInputType kindsSchema (.list (.listNil true) false) = .panic := by
  refine ⟨rfl, rfl, rfl, rfl, rfl, rfl⟩

example : isAbstractType kindsSchema (.named b!"I" true) = true ∧ isAbstractType kindsSchema (.list (.named b!"I" true) true) = false ∧
    isUnionMemberType kindsSchema (.named b!"A" false) = true ∧ isUnionMemberType kindsSchema (.named b!"A" true) = false ∧
    isUnionMemberType kindsSchema (.named b!"I" false) = false := by
  refine ⟨rfl, rfl, rfl, rfl, rfl⟩

example : Spec.IsKind kindsSchema b!"A" .object ∧ Spec.IsKind kindsSchema b!"I" .interface ∧ (kindsSchema.types.map (·.1)).Nodup ∧
    Ty.named b!"A" false ∈ possibleTypes Order.id kindsSchema (.named b!"I" false) := by
  have h : (kindsSchema.types.map (·.1)).Nodup := by decide
  have ho : Spec.IsKind kindsSchema b!"A" .object := ⟨_, rfl, rfl⟩
  have hi : Spec.IsKind kindsSchema b!"I" .interface := ⟨_, rfl, rfl⟩
  exact ⟨ho, hi, h, (C73_possible _ _ h _ _ _ ho (.inl hi)).2 ⟨_, _, rfl, rfl, .inr ⟨rfl, _, List.mem_cons_self .., rfl⟩⟩⟩

example : Spec.WellFormed kindsSchema := ⟨by decide, by decide, rfl⟩

end GQL

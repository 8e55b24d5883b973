/-
What the functions of validation/utils.go about types compute.
-/
import Verif.Model.Utils
import Verif.Spec.Schema
import Verif.Proofs.Decorate

namespace GQL
open Classical

theorem mem_iff_lookup {β : Type} {m : GMap β} (h : (m.map (·.1)).Nodup) (k : Bytes) (v : β) : (k, v) ∈ m ↔ m.lookup k = some v := by
  induction m with
  | nil => simp
  | cons p m ih =>
    obtain ⟨a, b⟩ := p
    rw [List.map_cons, List.nodup_cons] at h
    simp only [List.mem_cons, List.lookup]
    by_cases e : k = a
    · subst e
      have : ∀ v, (k, v) ∉ m := fun v hv => h.1 (List.mem_map.2 ⟨_, hv, rfl⟩)
      simp [this, eq_comm]
    · have e' : (k == a) = false := by simpa using e
      simp [e, e', ih h.2]

theorem kindOf_iff (s : Schema) (n : Bytes) (k : TypeKind) : s.kindOf n = some k ↔ Spec.IsKind s n k := by
  unfold Schema.kindOf Spec.IsKind
  rw [Option.map_eq_some_iff]

theorem namedType_eq (t : Ty) : t.namedType = Spec.tyName t := by cases t <;> rfl

theorem isInterfaceType_iff (s : Schema) (t : Ty) : isInterfaceType s t = true ↔ Spec.IsKind s (Spec.tyName t) .interface := by
  rw [← kindOf_iff, ← namedType_eq]
  unfold isInterfaceType
  split <;> rename_i h <;> rw [h] <;> simp

theorem isObjectType_iff (s : Schema) (t : Ty) : isObjectType s t = true ↔ Spec.IsKind s (Spec.tyName t) .object := by
  rw [← kindOf_iff, ← namedType_eq]
  unfold isObjectType
  split <;> rename_i h <;> rw [h] <;> simp

theorem isUnionType_iff (s : Schema) (t : Ty) : isUnionType s t = true ↔ Spec.IsKind s (Spec.tyName t) .union := by
  rw [← kindOf_iff, ← namedType_eq]
  unfold isUnionType
  split <;> rename_i h <;> rw [h] <;> simp

/-! ### Input and output types -/

theorem isInputType_spec (s : Schema) : ∀ t : Ty,
    ((Spec.innerName t).isSome → isInputType s t = .ret (decide (Spec.InputType s t))) ∧ ((Spec.innerName t) = none → isInputType s t = .panic)
  | .list t x => by
    obtain ⟨h1, h2⟩ := isInputType_spec s t
    exact ⟨fun h => (h1 h).trans (by rfl), h2⟩
  | .listNil x => ⟨fun h => (by cases h), fun _ => rfl⟩
  | .named n x => by
    refine ⟨fun _ => ?_, fun h => by cases h⟩
    unfold isInputType
    congr 1
    rw [Bool.eq_iff_iff, decide_eq_true_iff]
    unfold Spec.InputType
    simp only [← kindOf_iff, Spec.innerName, Option.some.injEq, exists_eq_left']
    split <;> (try rename_i h; simp [h]; done)
    rename_i h1 h2 h3
    simp [show s.kindOf n ≠ some .scalar from h1, show s.kindOf n ≠ some .enum from h2, show s.kindOf n ≠ some .inputObject from h3]

theorem isOutputType_spec (s : Schema) : ∀ t : Ty,
    ((Spec.innerName t).isSome → isOutputType s t = .ret (decide (Spec.OutputType s t))) ∧ ((Spec.innerName t) = none → isOutputType s t = .panic)
  | .list t x => by
    obtain ⟨h1, h2⟩ := isOutputType_spec s t
    exact ⟨fun h => (h1 h).trans (by rfl), h2⟩
  | .listNil x => ⟨fun h => (by cases h), fun _ => rfl⟩
  | .named n x => by
    refine ⟨fun _ => ?_, fun h => by cases h⟩
    unfold isOutputType
    congr 1
    rw [Bool.eq_iff_iff, decide_eq_true_iff]
    unfold Spec.OutputType
    simp only [← kindOf_iff, Spec.innerName, Option.some.injEq, exists_eq_left']
    split <;> (try rename_i h; simp [h]; done)
    rename_i h1 h2 h3 h4 h5
    simp [show s.kindOf n ≠ some .scalar from h1, show s.kindOf n ≠ some .object from h2, show s.kindOf n ≠ some .interface from h3,
      show s.kindOf n ≠ some .union from h4, show s.kindOf n ≠ some .enum from h5]

/-! ### Possible types -/

theorem goEq_named (ptr : Pointers) (t : Ty) (n : Bytes) (x : Bool) : t.goEq ptr (.named n x) = true ↔ t = .named n x := by
  cases t <;> simp [Ty.goEq]

theorem goEq_sound (ptr : Pointers) (a b : Ty) (h : a.goEq ptr b = true) : a = b := by
  cases a <;> cases b <;> simp [Ty.goEq] at h ⊢
  · exact h
  · exact ⟨ptr.sound _ _ h.1, h.2⟩
  · exact h

theorem possibleLoop_found (ptr : Pointers) (n : Bytes) (len : Int) : ∀ (rest : List Ty) (iter : Int) (fuel : Nat), 0 ≤ iter → iter + rest.length = len →
    Ty.named n false ∈ rest → rest.length ≤ fuel → possibleLoop ptr (.named n false) len fuel rest iter = .ret true
  | [], _, _, _, _, h, _ => by cases h
  | t :: rest, iter, fuel, h0, hl, hm, hf => by
    obtain ⟨fuel, rfl⟩ : ∃ k, fuel = k + 1 := ⟨fuel - 1, by simp at hf; omega⟩
    unfold possibleLoop
    have h1 : iter < len := by simp at hl; omega
    simp only [h1, ↓reduceIte]
    by_cases e : t.goEq ptr (.named n false) = true
    · rw [if_pos e]
    · rw [if_neg e]
      have hm' : Ty.named n false ∈ rest := by
        rcases List.mem_cons.1 hm with h | h
        · exact absurd ((goEq_named ptr t n false).2 h.symm) e
        · exact h
      simp only [List.tail_cons, List.isEmpty_cons, Bool.false_eq_true, ↓reduceIte]
      exact possibleLoop_found ptr n len rest (iter + 1) fuel (by omega) (by simp at hl; omega) hm' (by simpa using hf)

theorem possibleLoop_lost (ptr : Pointers) (n : Bytes) (hn : n ≠ []) (len : Int) (h0 : 0 ≤ len) : ∀ (fuel : Nat) (rest : List Ty) (iter : Int),
    (rest ≠ [] → iter + rest.length = len) → Ty.named n false ∉ rest → possibleLoop ptr (.named n false) len fuel rest iter = .oof
  | 0, _, _, _, _ => rfl
  | fuel + 1, [], iter, _, _ => by
    unfold possibleLoop
    have h1 : (-1 : Int) < len := by omega
    have h2 : ¬ Ty.goEq ptr (.named [] false) (.named n false) = true := by
      rw [goEq_named]; intro e; cases e; exact hn rfl
    simp only [h1, ↓reduceIte, h2]
    exact possibleLoop_lost ptr n hn len h0 fuel [] _ (by simp) (by simp)
  | fuel + 1, t :: rest, iter, hl, hm => by
    rw [List.mem_cons, not_or] at hm
    have hl := hl (by simp)
    unfold possibleLoop
    have h1 : iter < len := by simp at hl; omega
    have h2 : ¬ Ty.goEq ptr t (.named n false) = true := by
      rw [goEq_named]; exact fun e => hm.1 e.symm
    simp only [h1, ↓reduceIte, h2, List.tail_cons, List.isEmpty_cons, Bool.false_eq_true]
    exact possibleLoop_lost ptr n hn len h0 fuel rest _ (fun _ => by simp at hl; omega) hm.2

/-- `implementations` after some interfaces of a type. -/
theorem addImplementation_lookup (s : Schema) (tn : Bytes) (m : Bytes) (n : Bytes) : ∀ (l : List Ty) (acc : GMap (List Ty)),
    (Ty.named n false ∈ ((l.foldl (addImplementation s tn) acc).lookup m).getD [] ↔
      Ty.named n false ∈ (acc.lookup m).getD [] ∨ (n = tn ∧ ∃ i ∈ l, Spec.tyName i = m ∧ Spec.IsKind s m .interface))
  | [], acc => by simp
  | i :: l, acc => by
    rw [List.foldl_cons, addImplementation_lookup s tn m n l]
    have key : (Ty.named n false ∈ ((addImplementation s tn acc i).lookup m).getD [] ↔
        Ty.named n false ∈ (acc.lookup m).getD [] ∨ (n = tn ∧ Spec.tyName i = m ∧ Spec.IsKind s m .interface)) := by
      unfold addImplementation
      by_cases h : isInterfaceType s i = true
      · rw [if_pos h, lookup_mapSet, namedType_eq]
        rw [isInterfaceType_iff] at h
        by_cases e : m = Spec.tyName i
        · subst e
          simp [h, or_comm]
        · have e' : (m == Spec.tyName i) = false := by simpa using e
          simp [e', show ¬ Spec.tyName i = m from fun h => e h.symm]
      · rw [if_neg h]
        rw [isInterfaceType_iff] at h
        constructor
        · exact .inl
        · rintro (h' | ⟨_, rfl, h'⟩)
          · exact h'
          · exact absurd h' h
    rw [key]
    simp only [List.mem_cons, exists_eq_or_imp]
    constructor
    · rintro ((h | ⟨h1, h2⟩) | ⟨h1, i', hi, h2⟩)
      · exact .inl h
      · exact .inr ⟨h1, .inl h2⟩
      · exact .inr ⟨h1, .inr ⟨i', hi, h2⟩⟩
    · rintro (h | ⟨h1, h2 | ⟨i', hi, h2⟩⟩)
      · exact .inl (.inl h)
      · exact .inl (.inr ⟨h1, h2⟩)
      · exact .inr ⟨h1, i', hi, h2⟩

theorem implementations_fold (s : Schema) (m n : Bytes) : ∀ (l : List (Bytes × TypeDef)) (acc : GMap (List Ty)),
    (Ty.named n false ∈ ((l.foldl (implementationStep s) acc).lookup m).getD [] ↔
      Ty.named n false ∈ (acc.lookup m).getD [] ∨
        (∃ t, (n, t) ∈ l ∧ t.kind = .object ∧ (∃ i ∈ t.ifaces, Spec.tyName i = m) ∧ Spec.IsKind s m .interface))
  | [], acc => by simp
  | (tn, t) :: l, acc => by
    rw [List.foldl_cons, implementations_fold s m n l]
    have split : ∀ P : Prop, ((Ty.named n false ∈ (acc.lookup m).getD [] ∨ (n = tn ∧ t.kind = .object ∧ (∃ i ∈ t.ifaces, Spec.tyName i = m) ∧ Spec.IsKind s m .interface)) ∨ P) ↔
        (Ty.named n false ∈ (acc.lookup m).getD [] ∨ ((n = tn ∧ t.kind = .object ∧ (∃ i ∈ t.ifaces, Spec.tyName i = m) ∧ Spec.IsKind s m .interface) ∨ P)) := by
      intro P; rw [or_assoc]
    have rhs : (∃ t', (n, t') ∈ (tn, t) :: l ∧ t'.kind = .object ∧ (∃ i ∈ t'.ifaces, Spec.tyName i = m) ∧ Spec.IsKind s m .interface) ↔
        ((n = tn ∧ t.kind = .object ∧ (∃ i ∈ t.ifaces, Spec.tyName i = m) ∧ Spec.IsKind s m .interface) ∨
          (∃ t', (n, t') ∈ l ∧ t'.kind = .object ∧ (∃ i ∈ t'.ifaces, Spec.tyName i = m) ∧ Spec.IsKind s m .interface)) := by
      constructor
      · rintro ⟨t', h1, h2⟩
        rcases List.mem_cons.1 h1 with h1 | h1
        · cases h1; exact .inl ⟨rfl, h2⟩
        · exact .inr ⟨t', h1, h2⟩
      · rintro (⟨rfl, h2⟩ | ⟨t', h1, h2⟩)
        · exact ⟨t, by simp, h2⟩
        · exact ⟨t', by simp [h1], h2⟩
    rw [rhs, ← split]
    refine or_congr_left ?_
    unfold implementationStep
    dsimp only
    cases hk : t.kind with
    | object =>
      simp only [addImplementation_lookup]
      refine or_congr_right ?_
      constructor
      · rintro ⟨h1, i, hi, h2, h3⟩; exact ⟨h1, trivial, ⟨i, hi, h2⟩, h3⟩
      · rintro ⟨h1, _, ⟨i, hi, h2⟩, h3⟩; exact ⟨h1, i, hi, h2, h3⟩
    | interface =>
      simp only [reduceCtorEq, false_and, and_false, or_false]
      by_cases h : (acc.lookup tn).isSome = true
      · rw [if_pos h]
      · rw [if_neg h, lookup_mapSet]
        by_cases e : m = tn
        · subst e
          have : acc.lookup m = none := Option.not_isSome_iff_eq_none.1 h
          simp [this]
        · have e' : (m == tn) = false := by simpa using e
          simp [e']
    | _ => simp

theorem possibleTypes_spec (ord : Order TypeDef) (s : Schema) (hs : (s.types.map (·.1)).Nodup) (m n : Bytes) (x : Bool) (ho : Spec.IsKind s n .object)
    (ha : Spec.IsKind s m .interface ∨ Spec.IsKind s m .union) :
    Ty.named n false ∈ possibleTypes ord s (.named m x) ↔ Spec.PossibleType s m n := by
  obtain ⟨t, ht, hk⟩ := ho
  unfold possibleTypes Spec.PossibleType
  by_cases hu : isUnionType s (.named m x) = true
  · rw [if_pos hu]
    obtain ⟨d, hd, hdk⟩ := (isUnionType_iff s _).1 hu
    have hd : s.types.lookup m = some d := hd
    simp only [Ty.namedType, hd, ht, Option.some.injEq]
    constructor
    · intro h; exact ⟨d, t, rfl, rfl, hk, .inl ⟨hdk, h⟩⟩
    · rintro ⟨_, _, rfl, rfl, _, h | h⟩
      · exact h.2
      · rw [hdk] at h; cases h.1
  · rw [if_neg hu]
    have hi : Spec.IsKind s m .interface := by
      rcases ha with h | h
      · exact h
      · exact absurd ((isUnionType_iff s (.named m x)).2 h) hu
    obtain ⟨d, hd, hdk⟩ := hi
    unfold interfaceImplementations
    simp only [Ty.namedType]
    rw [implementations_fold]
    simp only [List.lookup, Option.getD_none, List.not_mem_nil, false_or]
    constructor
    · rintro ⟨t', h1, h2, h3, _⟩
      have h1 := (mem_iff_lookup hs n t').1 ((ord.perm s.types).mem_iff.1 h1)
      exact ⟨d, t', hd, h1, h2, .inr ⟨hdk, h3⟩⟩
    · rintro ⟨d', t', h1, h2, h3, h | h⟩
      · rw [hd] at h1; cases h1; rw [hdk] at h; cases h.1
      · exact ⟨t', (ord.perm s.types).mem_iff.2 ((mem_iff_lookup hs n t').2 h2), h3, h.2, ⟨d, hd, hdk⟩⟩

/-! ### Subtypes -/

theorem Spec.StuckSub.not_subtype {s : Schema} {a b : Ty} (h : Spec.StuckSub s a b) : ¬ Spec.Subtype s a b := by
  induction h with
  | named h hn ho ha hp =>
    intro hs
    cases hs with
    | refl => exact hn rfl
    | same => exact hn rfl
    | possible _ hp' => exact hp hp'
  | list h ht ih =>
    intro hs
    cases hs with
    | refl => exact ih (.refl _)
    | list _ ht' => exact ih ht'

theorem Out.bind_ret {α β : Type} (a : α) (f : α → Out β) : (Out.ret a).bind f = f a := rfl

variable {s : Schema} (ptr : Pointers) (ord : Order TypeDef)

theorem sub_step (fuel : Nat) (a b : Ty) : isTypeSubTypeOf ptr ord s (fuel + 1) a b =
    if Ty.goEq ptr a b then .ret true
    else if b.nonNull then
      if a.nonNull then isTypeSubTypeOf ptr ord s fuel a.nullable b.nullable
      else .ret false
    else if a.nonNull then isTypeSubTypeOf ptr ord s fuel a.nullable b
    else if b.isList then
      if a.isList then
        a.item.bind fun t => b.item.bind fun u => isTypeSubTypeOf ptr ord s fuel t u
      else .ret false
    else if a.isList then .ret false
    else if isAbstractType s b && isObjectType s a then isPossibleType fuel ptr ord s b a
    else .ret false := rfl

/-- The result does not depend on which pointers are equal: types that are equal are subtypes anyway. -/
theorem sub_refl : ∀ (t : Ty) (fuel : Nat), 2 * sizeOf t + 1 ≤ fuel → isTypeSubTypeOf ptr ord s fuel t t = .ret true
  | .named n x, fuel + 1, _ => by
    rw [sub_step, if_pos ((goEq_named ptr _ n x).2 rfl)]
  | .listNil x, fuel + 1, _ => by
    rw [sub_step, if_pos (by simp [Ty.goEq])]
  | .list t x, 1, h => by simp at h
  | .list t x, fuel + 2, h => by
    rw [sub_step]
    split
    · rfl
    · have ih : isTypeSubTypeOf ptr ord s (fuel + 1) (.list t false) (.list t false) = .ret true := by
        rw [sub_step]
        split
        · rfl
        · exact sub_refl t fuel (by simp at h; omega)
      cases x with
      | false => simpa [Ty.nonNull, Ty.isList, Ty.item, Out.bind_ret] using sub_refl t (fuel + 1) (by simp at h; omega)
      | true => simpa [Ty.nonNull, Ty.nullable] using ih

/-- List types are compared by their items. -/
theorem sub_list0 (fuel : Nat) (t u : Ty) : isTypeSubTypeOf ptr ord s (fuel + 1) (.list t false) (.list u false) =
    if Ty.goEq ptr (.list t false) (.list u false) then .ret true else isTypeSubTypeOf ptr ord s fuel t u := by
  rw [sub_step]; rfl

/-- Named types without `!`. -/
theorem sub_named0 (fuel : Nat) (n m : Bytes) : isTypeSubTypeOf ptr ord s (fuel + 1) (.named n false) (.named m false) =
    if n = m then .ret true
    else if isAbstractType s (.named m false) && isObjectType s (.named n false) then isPossibleType fuel ptr ord s (.named m false) (.named n false)
    else .ret false := by
  rw [sub_step]
  by_cases h : n = m
  · rw [if_pos h, if_pos (by rw [goEq_named, h])]
  · rw [if_neg h, if_neg (by rw [goEq_named]; simp [h])]; rfl

/-- The wrappers decide, or the types without `!` do. -/
theorem sub_wrap (fuel : Nat) (a b : Ty) (h : a ≠ b) : isTypeSubTypeOf ptr ord s (fuel + 1) a b =
    if b.nonNull = true ∧ a.nonNull = false then .ret false
    else if b.nonNull = true ∨ a.nonNull = true then isTypeSubTypeOf ptr ord s fuel a.nullable b.nullable
    else isTypeSubTypeOf ptr ord s (fuel + 1) a b := by
  have hg : ¬ a.goEq ptr b = true := fun e => h (goEq_sound ptr _ _ e)
  have hb : b.nonNull = false → b.nullable = b := by cases b <;> simp [Ty.nonNull, Ty.nullable]
  cases hbn : b.nonNull <;> cases han : a.nonNull <;> simp [sub_step, hg, hbn, han]
  · rw [hb hbn]

theorem stuck_wrap (a b : Ty) : Spec.StuckSub s a b ↔ (b.nonNull = true → a.nonNull = true) ∧ Spec.StuckSub s a.nullable b.nullable := by
  constructor
  · intro h
    cases h with
    | named h hn ho ha hp => exact ⟨h, .named (by simp) hn ho ha hp⟩
    | list h ht => exact ⟨h, .list (by simp) ht⟩
  · rintro ⟨h, h2⟩
    cases a <;> cases b <;> cases h2
    · exact .named h (by assumption) (by assumption) (by assumption) (by assumption)
    · exact .list h (by assumption)

theorem subtype_wrap {a b : Ty} (hc : (Spec.innerName b).isSome) :
    Spec.Subtype s a b ↔ (b.nonNull = true → a.nonNull = true) ∧ Spec.Subtype s a.nullable b.nullable := by
  constructor
  · intro h
    cases h with
    | refl => exact ⟨id, .refl _⟩
    | same n h => exact ⟨h, .refl _⟩
    | possible h hp => exact ⟨h, .possible (by simp) hp⟩
    | list h ht => exact ⟨h, .list (by simp) ht⟩
  · rintro ⟨h, h2⟩
    cases a <;> cases b <;> cases h2
    · exact .same _ h
    · exact .same _ h
    · rename_i hp _; exact .possible h hp
    · exact .list h (.refl _)
    · rename_i ht _; exact .list h ht
    · cases hc

/-- What `IsTypeSubTypeOf` computes: nothing if the comparison is stuck, else the subtype relation. -/
def SubSpec (ptr : Pointers) (ord : Order TypeDef) (s : Schema) (a b : Ty) : Prop :=
  (Spec.StuckSub s a b → ∀ fuel, isTypeSubTypeOf ptr ord s fuel a b = .oof) ∧
  (¬ Spec.StuckSub s a b → ∃ N, ∀ fuel ≥ N, isTypeSubTypeOf ptr ord s fuel a b = .ret (decide (Spec.Subtype s a b)))

theorem SubSpec.of_refl (t : Ty) : SubSpec ptr ord s t t := by
  refine ⟨fun h => absurd (.refl t) h.not_subtype, fun _ => ⟨2 * sizeOf t + 1, fun fuel hf => ?_⟩⟩
  rw [sub_refl ptr ord t fuel hf]
  simp [Spec.Subtype.refl]

theorem SubSpec.of_wrap {a b : Ty} (hc : (Spec.innerName b).isSome) (h : SubSpec ptr ord s a.nullable b.nullable) : SubSpec ptr ord s a b := by
  by_cases hab : a = b
  · subst hab; exact .of_refl ptr ord a
  · by_cases hw : b.nonNull = true ∧ a.nonNull = false
    · have hn : ¬ (b.nonNull = true → a.nonNull = true) := by simp [hw]
      refine ⟨fun h => absurd ((stuck_wrap a b).1 h).1 hn, fun _ => ⟨1, fun fuel hf => ?_⟩⟩
      obtain ⟨k, rfl⟩ : ∃ k, fuel = k + 1 := ⟨fuel - 1, by omega⟩
      rw [sub_wrap ptr ord k a b hab, if_pos hw]
      congr 1
      have : ¬ Spec.Subtype s a b := fun h => hn ((subtype_wrap hc).1 h).1
      simp [this]
    · have hn : b.nonNull = true → a.nonNull = true := by
        intro h1; cases h2 : a.nonNull
        · exact absurd ⟨h1, h2⟩ hw
        · rfl
      by_cases hx : b.nonNull = true ∨ a.nonNull = true
      · have step : ∀ k, isTypeSubTypeOf ptr ord s (k + 1) a b = isTypeSubTypeOf ptr ord s k a.nullable b.nullable := by
          intro k; rw [sub_wrap ptr ord k a b hab, if_neg hw, if_pos hx]
        refine ⟨fun hst fuel => ?_, fun hst => ?_⟩
        · cases fuel with
          | zero => rfl
          | succ k => rw [step]; exact h.1 ((stuck_wrap a b).1 hst).2 k
        · obtain ⟨N, hN⟩ := h.2 fun x => hst ((stuck_wrap a b).2 ⟨hn, x⟩)
          refine ⟨N + 1, fun fuel hf => ?_⟩
          obtain ⟨k, rfl⟩ : ∃ k, fuel = k + 1 := ⟨fuel - 1, by omega⟩
          rw [step, hN k (by omega)]
          congr 1
          rw [decide_eq_decide, subtype_wrap hc]
          exact (and_iff_right hn).symm
      · have e : ∀ t : Ty, ¬ t.nonNull = true → t.nullable = t := by
          intro t ht; cases t <;> simp_all [Ty.nonNull, Ty.nullable]
        rw [not_or] at hx
        rw [e a hx.2, e b hx.1] at h
        exact h

theorem sub_spec (hs : Spec.WellFormed s) : ∀ (b a : Ty), (Spec.innerName a).isSome → (Spec.innerName b).isSome → SubSpec ptr ord s a b := by
  intro b
  induction b with
  | listNil y => intro a _ hb; cases hb
  | named m y =>
    intro a ha hb
    refine .of_wrap ptr ord hb ?_
    cases a with
    | listNil x => cases ha
    | list t x =>
      refine ⟨fun h => (nomatch h), fun _ => ⟨1, fun fuel hf => ?_⟩⟩
      obtain ⟨k, rfl⟩ : ∃ k, fuel = k + 1 := ⟨fuel - 1, by omega⟩
      have : ¬ Spec.Subtype s (Ty.list t x).nullable (Ty.named m y).nullable := fun h => nomatch h
      rw [decide_eq_false this]
      rfl
    | named n x =>
      show SubSpec ptr ord s (.named n false) (.named m false)
      by_cases hnm : n = m
      · subst hnm; exact .of_refl ptr ord _
      · by_cases hl : (isAbstractType s (.named m false) && isObjectType s (.named n false)) = true
        · have step : ∀ k, isTypeSubTypeOf ptr ord s (k + 1) (.named n false) (.named m false) =
              isPossibleType k ptr ord s (.named m false) (.named n false) := by
            intro k; rw [sub_named0, if_neg hnm, if_pos hl]
          rw [Bool.and_eq_true] at hl
          have ho : Spec.IsKind s n .object := (isObjectType_iff s _).1 hl.2
          have ha' : Spec.IsKind s m .interface ∨ Spec.IsKind s m .union := by
            have := hl.1
            unfold isAbstractType at this
            rw [Bool.or_eq_true] at this
            exact this.imp (isInterfaceType_iff s _).1 (isUnionType_iff s _).1
          have hp := possibleTypes_spec ord s hs.types m n false ho ha'
          have hne : n ≠ [] := by
            rintro rfl
            obtain ⟨d, hd, _⟩ := ho
            rw [hs.named] at hd; cases hd
          by_cases hpt : Spec.PossibleType s m n
          · refine ⟨fun h => ?_, fun _ => ⟨(possibleTypes ord s (.named m false)).length + 1, fun fuel hf => ?_⟩⟩
            · cases h with
              | named _ _ _ _ h => exact absurd hpt h
            · obtain ⟨k, rfl⟩ : ∃ k, fuel = k + 1 := ⟨fuel - 1, by omega⟩
              rw [step, decide_eq_true (.possible (by simp) hpt)]
              exact possibleLoop_found ptr n _ _ 0 k (by omega) (by simp) (hp.2 hpt) (by omega)
          · refine ⟨fun _ fuel => ?_, fun h => absurd (.named (by simp) hnm ho ha' hpt) h⟩
            cases fuel with
            | zero => rfl
            | succ k =>
              rw [step]
              exact possibleLoop_lost ptr n hne _ (by omega) k _ 0 (fun _ => by simp) fun h => hpt (hp.1 h)
        · have h0 : ¬ (Spec.IsKind s n .object ∧ (Spec.IsKind s m .interface ∨ Spec.IsKind s m .union)) := by
            rintro ⟨h1, h2⟩
            refine hl ?_
            rw [Bool.and_eq_true]
            refine ⟨?_, (isObjectType_iff s _).2 h1⟩
            unfold isAbstractType
            rw [Bool.or_eq_true]
            exact h2.imp (isInterfaceType_iff s (.named m false)).2 (isUnionType_iff s (.named m false)).2
          refine ⟨fun h => ?_, fun _ => ⟨1, fun fuel hf => ?_⟩⟩
          · cases h with
            | named _ _ h1 h2 _ => exact absurd ⟨h1, h2⟩ h0
          · obtain ⟨k, rfl⟩ : ∃ k, fuel = k + 1 := ⟨fuel - 1, by omega⟩
            rw [sub_named0, if_neg hnm, if_neg hl]
            congr 1
            symm
            rw [decide_eq_false_iff_not]
            intro h
            cases h with
            | refl => exact hnm rfl
            | same => exact hnm rfl
            | possible _ hp =>
              obtain ⟨d, t, h1, h2, h3, h4⟩ := hp
              exact h0 ⟨⟨t, h2, h3⟩, h4.imp (fun h => ⟨d, h1, h.1⟩) (fun h => ⟨d, h1, h.1⟩) |>.symm⟩
  | list u y ih =>
    intro a ha hb
    refine .of_wrap ptr ord hb ?_
    cases a with
    | listNil x => cases ha
    | named n x =>
      refine ⟨fun h => (nomatch h), fun _ => ⟨1, fun fuel hf => ?_⟩⟩
      obtain ⟨k, rfl⟩ : ∃ k, fuel = k + 1 := ⟨fuel - 1, by omega⟩
      have : ¬ Spec.Subtype s (Ty.named n x).nullable (Ty.list u y).nullable := fun h => nomatch h
      rw [decide_eq_false this]
      rfl
    | list t x =>
      show SubSpec ptr ord s (.list t false) (.list u false)
      by_cases htu : t = u
      · subst htu; exact .of_refl ptr ord _
      · have step : ∀ k, isTypeSubTypeOf ptr ord s (k + 1) (.list t false) (.list u false) = isTypeSubTypeOf ptr ord s k t u := by
          intro k
          rw [sub_list0, if_neg]
          intro h
          exact htu (by cases goEq_sound ptr _ _ h; rfl)
        obtain ⟨h1, h2⟩ := ih t ha hb
        refine ⟨fun h fuel => ?_, fun h => ?_⟩
        · cases fuel with
          | zero => rfl
          | succ k =>
            rw [step]
            cases h with
            | list _ h => exact h1 h k
        · obtain ⟨N, hN⟩ := h2 fun x => h (.list (by simp) x)
          refine ⟨N + 1, fun fuel hf => ?_⟩
          obtain ⟨k, rfl⟩ : ∃ k, fuel = k + 1 := ⟨fuel - 1, by omega⟩
          rw [step, hN k (by omega)]
          congr 1
          rw [decide_eq_decide]
          constructor
          · exact .list (by simp)
          · intro h
            cases h with
            | refl => exact .refl _
            | list _ h => exact h

end GQL

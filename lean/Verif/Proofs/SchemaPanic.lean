/-
`ValidateSchema` does not panic on a schema whose types are complete.
-/
import Verif.Proofs.SchemaValidate

namespace GQL
open Classical

/-- Does not panic. -/
def Out.safe {α : Type} (x : Out α) : Prop := x ≠ .panic

theorem Out.safe_ret {α : Type} (a : α) : (Out.ret a).safe := fun h => nomatch h
theorem Out.safe_oof {α : Type} : (Out.oof : Out α).safe := fun h => nomatch h

theorem Out.safe_bind {α β : Type} {x : Out α} {f : α → Out β} (hx : x.safe) (hf : ∀ a, (f a).safe) : (x.bind f).safe := by
  cases x with
  | ret a => exact hf a
  | panic => exact absurd rfl hx
  | oof => exact Out.safe_oof

theorem Out.safe_append {α : Type} {x y : Out (List α)} (hx : x.safe) (hy : y.safe) : (x.append y).safe :=
  Out.safe_bind hx fun _ => Out.safe_bind hy fun _ => Out.safe_ret _

theorem outAll_safe {α β : Type} {f : α → Out (List β)} : ∀ (l : List α), (∀ a ∈ l, (f a).safe) → (outAll f l).safe
  | [], _ => Out.safe_ret _
  | a :: l, h => Out.safe_append (h a (by simp)) (outAll_safe l fun b hb => h b (by simp [hb]))

theorem isInputType_safe (s : Schema) {t : Ty} (h : (Spec.innerName t).isSome) : (isInputType s t).safe := by
  rw [(isInputType_spec s t).1 h]; exact Out.safe_ret _

theorem isOutputType_safe (s : Schema) {t : Ty} (h : (Spec.innerName t).isSome) : (isOutputType s t).safe := by
  rw [(isOutputType_spec s t).1 h]; exact Out.safe_ret _

theorem possibleLoop_safe (ptr : Pointers) (t : Ty) (len : Int) : ∀ (fuel : Nat) (rest : List Ty) (iter : Int), (possibleLoop ptr t len fuel rest iter).safe
  | 0, _, _ => Out.safe_oof
  | fuel + 1, rest, iter => by
    unfold possibleLoop
    dsimp only
    repeat' split
    all_goals first | exact Out.safe_ret _ | exact possibleLoop_safe ptr t len fuel _ _

theorem innerName_nullable (t : Ty) : Spec.innerName t.nullable = Spec.innerName t := by cases t <;> rfl

theorem sub_safe (ptr : Pointers) (ord : Order TypeDef) (s : Schema) : ∀ (fuel : Nat) (a b : Ty), (Spec.innerName a).isSome → (Spec.innerName b).isSome →
    (isTypeSubTypeOf ptr ord s fuel a b).safe
  | 0, _, _, _, _ => Out.safe_oof
  | fuel + 1, a, b, ha, hb => by
    have ha' : (Spec.innerName a.nullable).isSome := by rw [innerName_nullable]; exact ha
    have hb' : (Spec.innerName b.nullable).isSome := by rw [innerName_nullable]; exact hb
    rw [sub_step]
    split
    · exact Out.safe_ret _
    split
    · split
      · exact sub_safe ptr ord s fuel _ _ ha' hb'
      · exact Out.safe_ret _
    split
    · exact sub_safe ptr ord s fuel _ _ ha' hb
    split
    · split
      · rename_i h1 h2
        cases a with
        | named => cases h2
        | listNil => cases ha
        | list t x =>
          cases b with
          | named => cases h1
          | listNil => cases hb
          | list u y => exact sub_safe ptr ord s fuel t u ha hb
      · exact Out.safe_ret _
    split
    · exact Out.safe_ret _
    split
    · exact possibleLoop_safe _ _ _ _ _ _
    · exact Out.safe_ret _

section
variable (run : RunOrders) (s : Schema)

theorem fieldArgs_safe (tn fn : Bytes) : ∀ (args : List InputVal) (known : List Bytes), (∀ a ∈ args, (Spec.innerName a.type).isSome) →
    (fieldArgsOut s tn fn known args).safe
  | [], _, _ => Out.safe_ret _
  | a :: args, known, h => by
    unfold fieldArgsOut
    exact Out.safe_append (Out.safe_append (Out.safe_ret _) (Out.safe_bind (isInputType_safe s (h a (by simp))) fun _ => Out.safe_ret _))
      (fieldArgs_safe tn fn args _ fun b hb => h b (by simp [hb]))

theorem fields_safe (t : TypeDef) (h : ∀ f ∈ t.fields, (Spec.innerName f.type).isSome ∧ ∀ a ∈ f.args, (Spec.innerName a.type).isSome) :
    (fieldsOut s t).safe := by
  refine Out.safe_append (Out.safe_ret _) (outAll_safe _ fun f hf => ?_)
  exact Out.safe_append (Out.safe_append (Out.safe_ret _) (Out.safe_bind (isOutputType_safe s (h f hf).1) fun _ => Out.safe_ret _))
    (fieldArgs_safe s t.name f.name f.args [] (h f hf).2)

theorem implements_safe (fuel : Nat) (t i : TypeDef) (ht : ∀ g ∈ t.fields, (Spec.innerName g.type).isSome)
    (hi : ∀ f ∈ i.fields, (Spec.innerName f.type).isSome) : (implementsOut run s fuel t i).safe := by
  refine outAll_safe _ fun f hf => ?_
  unfold interfaceFieldOut
  cases hg : t.fieldByName f.name with
  | none => exact Out.safe_ret _
  | some g =>
    refine Out.safe_bind (sub_safe _ _ s fuel _ _ (ht g ?_) (hi f hf)) fun _ => Out.safe_ret _
    unfold TypeDef.fieldByName at hg
    split at hg
    · exact List.mem_of_find?_eq_some hg
    · cases hg

theorem interfaces_safe (hs : Spec.WellFormed s) (hc : Spec.Complete s) (fuel : Nat) (t : TypeDef) (ht : ∀ g ∈ t.fields, (Spec.innerName g.type).isSome) :
    ∀ (l : List Ty) (known : List Bytes), (interfacesOut run s fuel t known l).safe
  | [], _ => Out.safe_ret _
  | i :: l, known => by
    unfold interfacesOut
    split
    · exact Out.safe_append (Out.safe_ret _) (interfaces_safe hs hc fuel t ht l _)
    split
    · exact Out.safe_append (Out.safe_ret _) (interfaces_safe hs hc fuel t ht l _)
    rename_i h1 _
    have h1 : isInterfaceType s i = true := by simpa using h1
    obtain ⟨d, hd, hk⟩ := (isInterfaceType_iff s i).1 h1
    rw [namedType_eq, hd]
    have hm := (mem_iff_lookup hs.types _ _).2 hd
    exact Out.safe_append (implements_safe run s fuel t d ht fun f hf => (hc _ hm (.inr hk) f hf).1) (interfaces_safe hs hc fuel t ht l _)

theorem validateSchema_safe (hs : Spec.WellFormed s) (hc : Spec.Complete s) (fuel : Nat) (c : Ctx) : (validateSchema fuel run c s).safe := by
  obtain ⟨X, hX, _⟩ := validateDirectives_eq run.dirs s
  have h := Adds.fold (f := typeStep fuel run s) (run.types.arrange s.types) (fun p _ => type_adds run s fuel p) (validateDirectives run.dirs (validateRootTypes c s) s)
  rw [show validateSchema fuel run c s = _ from h]
  refine Out.safe_bind (outAll_safe _ fun p hp => ?_) fun _ => Out.safe_ret _
  have hp := (run.types.perm s.types).mem_iff.1 hp
  unfold typeOut
  refine Out.safe_append (Out.safe_ret _) ?_
  cases hk : p.2.kind with
  | object => exact Out.safe_append (fields_safe s p.2 (hc p hp (.inl hk))) (interfaces_safe run s hs hc fuel p.2 (fun g hg => (hc p hp (.inl hk) g hg).1) _ _)
  | interface => exact fields_safe s p.2 (hc p hp (.inr hk))
  | _ => exact Out.safe_ret _

end

end GQL

/-
The specification of schema validation does not see the order of map entries.
-/
import Verif.Proofs.SdlDoc

namespace GQL
open Classical

/-- The same schema, up to the order of map entries. -/
structure Spec.Same (s s' : Schema) : Prop where
  types : s.types.Perm s'.types
  directives : s.directives.Perm s'.directives
  definition : s.definition = s'.definition
  query : s.queryType = s'.queryType
  mutation : s.mutationType = s'.mutationType
  subscription : s.subscriptionType = s'.subscriptionType

theorem nodup_of_map {α β : Type} {f : α → β} {l : List α} (h : (l.map f).Nodup) : l.Nodup := by
  unfold List.Nodup at h
  rw [List.pairwise_map] at h
  exact h.imp fun hn he => hn (congrArg f he)

theorem perm_of_lookup {α : Type} {m m' : GMap α} (h : (m.map (·.1)).Nodup) (h' : (m'.map (·.1)).Nodup) (hl : ∀ n, m.lookup n = m'.lookup n) : m.Perm m' := by
  refine (List.perm_ext_iff_of_nodup (nodup_of_map h) (nodup_of_map h')).2 ?_
  rintro ⟨k, v⟩
  rw [mem_iff_lookup h, mem_iff_lookup h', hl]

theorem Spec.Built.same {schema : Option Schema} {ds : List Definition} {b b' : Schema} (h : Spec.Built schema ds b) (h' : Spec.Built schema ds b') :
    Spec.Same b b' :=
  ⟨perm_of_lookup h.typesOnce h'.typesOnce fun n => (h.types n).trans (h'.types n).symm,
   perm_of_lookup h.directivesOnce h'.directivesOnce fun n => (h.directives n).trans (h'.directives n).symm,
   h.definition.trans h'.definition.symm, h.query.trans h'.query.symm, h.mutation.trans h'.mutation.symm, h.subscription.trans h'.subscription.symm⟩

section
variable {s s' : Schema} (hl : ∀ n, s.types.lookup n = s'.types.lookup n)
include hl

theorem isKind_same : Spec.IsKind s = Spec.IsKind s' := by
  funext n k; unfold Spec.IsKind; rw [hl]

theorem inputType_same : Spec.InputType s = Spec.InputType s' := by
  funext t; unfold Spec.InputType; rw [isKind_same hl]

theorem outputType_same : Spec.OutputType s = Spec.OutputType s' := by
  funext t; unfold Spec.OutputType; rw [isKind_same hl]

theorem possibleType_same : Spec.PossibleType s = Spec.PossibleType s' := by
  funext n k; unfold Spec.PossibleType; simp only [hl]

theorem subtype_imp {a b : Ty} (h : Spec.Subtype s a b) : Spec.Subtype s' a b := by
  induction h with
  | refl => exact .refl _
  | same n h => exact .same n h
  | possible h hp => exact .possible h (possibleType_same hl ▸ hp)
  | list h _ ih => exact .list h ih

theorem stuck_imp {a b : Ty} (h : Spec.StuckSub s a b) : Spec.StuckSub s' a b := by
  induction h with
  | named h hn ho ha hp => exact .named h hn (isKind_same hl ▸ ho) (isKind_same hl ▸ ha) (possibleType_same hl ▸ hp)
  | list h _ ih => exact .list h ih

theorem subtype_same : Spec.Subtype s = Spec.Subtype s' := by
  funext a b
  exact propext ⟨subtype_imp hl, subtype_imp fun n => (hl n).symm⟩

theorem fieldErrors_same : Spec.fieldErrors s = Spec.fieldErrors s' := by
  funext t; unfold Spec.fieldErrors; rw [inputType_same hl, outputType_same hl]

theorem implementationErrors_same : Spec.implementationErrors s = Spec.implementationErrors s' := by
  funext t i; unfold Spec.implementationErrors; rw [subtype_same hl]

theorem interfaceErrors_same : Spec.interfaceErrors s = Spec.interfaceErrors s' := by
  funext t
  have : Spec.interfaces s = Spec.interfaces s' := by funext t; unfold Spec.interfaces; rw [isKind_same hl]
  unfold Spec.interfaceErrors
  rw [this, isKind_same hl, implementationErrors_same hl]
  simp only [hl]

theorem typeErrors_same : Spec.typeErrors s = Spec.typeErrors s' := by
  funext p; unfold Spec.typeErrors; rw [fieldErrors_same hl, interfaceErrors_same hl]

end

theorem schemaErrors_same {s s' : Schema} (h : Spec.Same s s') (hw : Spec.WellFormed s) : (Spec.schemaErrors s).Perm (Spec.schemaErrors s') := by
  have hl : ∀ n, s.types.lookup n = s'.types.lookup n := lookup_perm h.types hw.types
  have hr : Spec.rootTypeErrs s = Spec.rootTypeErrs s' := by
    have h1 : Spec.RootMissing s = Spec.RootMissing s' := by funext r; unfold Spec.RootMissing; simp only [hl]
    have h2 : Spec.RootNotObject s = Spec.RootNotObject s' := by funext r; unfold Spec.RootNotObject; rw [isKind_same hl]
    unfold Spec.rootTypeErrs
    rw [h1, h2, h.query, h.mutation, h.subscription]
  unfold Spec.schemaErrors
  rw [hr, typeErrors_same hl]
  exact ((h.directives.flatMap_right _).append_left _).append (h.types.flatMap_right _)

theorem complete_imp {s s' : Schema} (h : Spec.Same s s') (hc : Spec.Complete s) : Spec.Complete s' :=
  fun p hp => hc p (h.types.mem_iff.2 hp)

theorem settled_imp {s s' : Schema} (h : Spec.Same s s') (hw : Spec.WellFormed s) (hc : Spec.Settled s) : Spec.Settled s' := by
  have hl : ∀ n, s.types.lookup n = s'.types.lookup n := lookup_perm h.types hw.types
  intro p hp hk t ht i hi hik f hf g hg hst
  exact hc p (h.types.mem_iff.2 hp) hk t ht i ((hl _).trans hi) hik f hf g hg (stuck_imp (fun n => (hl n).symm) hst)

theorem Spec.Same.symm {s s' : Schema} (h : Spec.Same s s') : Spec.Same s' s :=
  ⟨h.types.symm, h.directives.symm, h.definition.symm, h.query.symm, h.mutation.symm, h.subscription.symm⟩

end GQL

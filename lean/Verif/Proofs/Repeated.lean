/-
`Spec.repeated` is what the loops of the rules find.
-/
import Verif.Proofs.RuleSpecs
import Verif.Spec.RuleErrors

namespace GQL

section
variable {α : Type} [BEq α] [LawfulBEq α]

theorem count_flatMap_replicate (f : α → Nat) (n : α) : ∀ l : List α, l.Nodup →
    (l.flatMap fun m => List.replicate (f m) m).count n = if n ∈ l then f n else 0
  | [], _ => by simp
  | m :: l, h => by
    rw [List.nodup_cons] at h
    rw [List.flatMap_cons, List.count_append, count_flatMap_replicate f n l h.2, List.count_replicate]
    by_cases hm : m = n
    · subst hm; simp [h.1]
    · have : ¬ n = m := fun e => hm e.symm
      simp [hm, this]

theorem eraseDups_nodup (l : List α) : l.eraseDups.Nodup := by
  have : ∀ (k : Nat) (l : List α), l.length ≤ k → l.eraseDups.Nodup := by
    intro k
    induction k with
    | zero => intro l hl; cases l <;> simp_all
    | succ k ih =>
      intro l hl
      cases l with
      | nil => simp
      | cons a l =>
        rw [List.eraseDups_cons, List.nodup_cons]
        refine ⟨fun hm => ?_, ih _ ?_⟩
        · rw [List.mem_eraseDups] at hm; simp at hm
        · have := List.length_filter_le (fun b => !b == a) l
          simp at hl; omega
  exact this _ l (Nat.le_refl _)

theorem repeated_count (l : List α) (n : α) : (Spec.repeated l).count n = l.count n - 1 := by
  unfold Spec.repeated
  rw [count_flatMap_replicate (fun n => l.count n - 1) n _ (eraseDups_nodup l)]
  split
  · rfl
  · rename_i h; rw [List.mem_eraseDups] at h; rw [List.count_eq_zero_of_not_mem h]

end

theorem repeated_isRepeats (l : List Bytes) : Spec.IsRepeats l (Spec.repeated l) := repeated_count l

theorem repeats_perm (l : List Bytes) : (repeats [] l).Perm (Spec.repeated l) := by
  rw [List.perm_iff_count]
  intro n
  rw [repeats_isRepeats l n, repeated_isRepeats l n]

end GQL

/-
Which operations the map of `PrepareContextSDL` has lost when the rule `UniqueOperationNames` looks for them.
-/
import Verif.Proofs.PrepareErrors
import Verif.Proofs.Repeated
import Verif.Proofs.Rules
import Verif.Proofs.Kinds

namespace GQL

/-- The name of an operation. -/
def opName (d : Definition) : Option Bytes :=
  match d.body with
  | .op o => some o.name
  | _ => none

/-- The number of the last operation with the name. -/
def lastOp (n : Bytes) : List (Definition × Nat) → Option Nat
  | [] => none
  | (d, i) :: l => (lastOp n l).or (if opName d = some n then some i else none)

theorem prepare_operations (n : Bytes) : ∀ (l : List (Definition × Nat)) (p : Ctx × SDLContext),
    (prepare l p).1.operations.lookup n = (lastOp n l).or (p.1.operations.lookup n)
  | [], p => rfl
  | (d, i) :: l, p => by
    refine (prepare_operations n l (prepareStep p.1 p.2 (d, i))).trans ?_
    have e : (prepareStep p.1 p.2 (d, i)).1.operations.lookup n =
        (if opName d = some n then some i else none).or (p.1.operations.lookup n) := by
      obtain ⟨loc, b⟩ := d
      cases b <;> (unfold prepareStep; dsimp only [opName])
      case op o =>
        rw [lookup_mapSet]
        by_cases h : n = o.name
        · subst h; simp
        · have h' : ¬ o.name = n := fun x => h x.symm
          simp [h, h']
      all_goals (repeat' split) <;> simp_all [Ctx.addError]
    rw [e, lastOp]
    cases lastOp n l <;> rfl

/-- The names that another of the same follows. -/
def overwritten : List Bytes → List Bytes
  | [] => []
  | n :: ns => (if n ∈ ns then [n] else []) ++ overwritten ns

theorem overwritten_count (x : Bytes) : ∀ l : List Bytes, (overwritten l).count x = l.count x - 1
  | [] => rfl
  | n :: ns => by
    rw [overwritten, List.count_append, overwritten_count x ns, List.count_cons]
    by_cases h : n = x
    · subst h
      by_cases hm : n ∈ ns
      · have := List.count_pos_iff.2 hm
        simp [hm]
      · simp [hm, List.count_eq_zero_of_not_mem hm]
    · have : (if n ∈ ns then [n] else []).count x = 0 := by split <;> simp [h]
      simp [this, h]

theorem overwritten_perm (l : List Bytes) : (overwritten l).Perm (Spec.repeated l) := by
  rw [List.perm_iff_count]
  intro n
  rw [overwritten_count, repeated_isRepeats l n]

theorem lastOp_ge {n : Bytes} : ∀ {ds : List Definition} {k j : Nat}, lastOp n (ds.zipIdx k) = some j → k ≤ j
  | [], _, _, h => by cases h
  | d :: ds, k, j, h => by
    rw [List.zipIdx_cons, lastOp] at h
    cases e : lastOp n (ds.zipIdx (k + 1)) with
    | some i => rw [e] at h; cases h; exact Nat.le_of_succ_le (lastOp_ge e)
    | none =>
      rw [e, Option.none_or] at h
      split at h <;> cases h
      exact Nat.le_refl _

theorem lastOp_none {n : Bytes} : ∀ {ds : List Definition} {k : Nat}, n ∉ ds.filterMap opName → lastOp n (ds.zipIdx k) = none
  | [], _, _ => rfl
  | d :: ds, k, h => by
    rw [List.zipIdx_cons, lastOp, lastOp_none (fun x => h (by rw [List.filterMap_cons]; cases opName d <;> simp [x]))]
    rw [Option.none_or, if_neg]
    intro e
    exact h (by rw [List.filterMap_cons, e]; simp)

theorem lastOp_some {n : Bytes} : ∀ {ds : List Definition} {k : Nat}, n ∈ ds.filterMap opName → ∃ j, lastOp n (ds.zipIdx k) = some j
  | [], _, h => by cases h
  | d :: ds, k, h => by
    rw [List.zipIdx_cons, lastOp]
    by_cases hm : n ∈ ds.filterMap opName
    · obtain ⟨j, hj⟩ := lastOp_some (k := k + 1) hm
      exact ⟨j, by rw [hj]; rfl⟩
    · rw [lastOp_none hm, Option.none_or]
      rw [List.filterMap_cons] at h
      cases e : opName d with
      | none => rw [e] at h; exact absurd h hm
      | some m =>
        rw [e] at h
        rcases List.mem_cons.1 h with rfl | h
        · exact ⟨k, if_pos rfl⟩
        · exact absurd h hm

/-- What the rule reports about one definition, if the map is `T`. -/
def opErr (T : Bytes → Option Nat) (e : Bytes → GErr) (p : Definition × Nat) : List GErr :=
  match opName p.1 with
  | some n => match T n with
    | some j => if j ≠ p.2 then [e n] else []
    | none => []
  | none => []

theorem opErr_all (T : Bytes → Option Nat) (e : Bytes → GErr) : ∀ (ds : List Definition) (k : Nat),
    (∀ n j, lastOp n (ds.zipIdx k) = some j → T n = some j) →
    (ds.zipIdx k).flatMap (opErr T e) = (overwritten (ds.filterMap opName)).map e
  | [], _, _ => rfl
  | d :: ds, k, h => by
    have ih := opErr_all T e ds (k + 1) (fun n j hj => h n j (by rw [List.zipIdx_cons, lastOp, hj]; rfl))
    rw [List.zipIdx_cons, List.flatMap_cons, ih, List.filterMap_cons]
    unfold opErr
    cases ho : opName d with
    | none => simp
    | some n =>
      dsimp only
      rw [overwritten, List.map_append]
      congr 1
      by_cases hm : n ∈ ds.filterMap opName
      · obtain ⟨j, hj⟩ := lastOp_some (k := k + 1) hm
        rw [h n j (by rw [List.zipIdx_cons, lastOp, hj]; rfl)]
        have := lastOp_ge hj
        dsimp only
        rw [if_pos (by omega), if_pos hm]
        rfl
      · rw [h n k (by rw [List.zipIdx_cons, lastOp, lastOp_none hm, ho]; simp)]
        simp [hm]

end GQL

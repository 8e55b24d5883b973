/-
More fuel does not change a result of `ValidateSchema`.
-/
import Verif.Proofs.SchemaPanic

namespace GQL
open Classical

/-- `y` is at least as defined as `x`. -/
def Out.le {α : Type} (x y : Out α) : Prop := x = .oof ∨ x = y

theorem Out.le_refl {α : Type} (x : Out α) : x.le x := .inr rfl
theorem Out.oof_le {α : Type} (x : Out α) : (Out.oof : Out α).le x := .inl rfl

theorem Out.le_bind {α β : Type} {x y : Out α} {f g : α → Out β} (h : x.le y) (hf : ∀ a, (f a).le (g a)) : (x.bind f).le (y.bind g) := by
  rcases h with rfl | rfl
  · exact .inl rfl
  · cases x with
    | ret a => exact hf a
    | panic => exact .inr rfl
    | oof => exact .inl rfl

theorem Out.le_ret {α : Type} {x y : Out α} (h : x.le y) {a : α} (hx : x = .ret a) : y = .ret a := by
  rcases h with h | h
  · rw [hx] at h; cases h
  · rw [← h, hx]

theorem foldOut_le {α β : Type} {f g : β → α → Out β} (h : ∀ b a, (f b a).le (g b a)) : ∀ (l : List α) (b : β), (foldOut f l b).le (foldOut g l b)
  | [], _ => Out.le_refl _
  | a :: l, b => Out.le_bind (h b a) (foldOut_le h l)

theorem possibleLoop_mono (ptr : Pointers) (t : Ty) (len : Int) : ∀ (fuel k : Nat) (rest : List Ty) (iter : Int), fuel ≤ k →
    (possibleLoop ptr t len fuel rest iter).le (possibleLoop ptr t len k rest iter)
  | 0, _, _, _, _ => Out.oof_le _
  | fuel + 1, 0, _, _, h => absurd h (by omega)
  | fuel + 1, k + 1, rest, iter, h => by
    cases rest with
    | nil =>
      simp only [possibleLoop]
      split
      · split
        · exact Out.le_refl _
        · exact possibleLoop_mono ptr t len fuel k _ _ (by omega)
      · exact Out.le_refl _
    | cons a l =>
      simp only [possibleLoop]
      split
      · split
        · exact Out.le_refl _
        · exact possibleLoop_mono ptr t len fuel k _ _ (by omega)
      · exact Out.le_refl _

theorem sub_mono (ptr : Pointers) (ord : Order TypeDef) (s : Schema) : ∀ (fuel k : Nat) (a b : Ty), fuel ≤ k →
    (isTypeSubTypeOf ptr ord s fuel a b).le (isTypeSubTypeOf ptr ord s k a b)
  | 0, _, _, _, _ => Out.oof_le _
  | fuel + 1, 0, _, _, h => absurd h (by omega)
  | fuel + 1, k + 1, a, b, h => by
    have ih := fun a b => sub_mono ptr ord s fuel k a b (by omega)
    rw [sub_step, sub_step]
    split
    · exact Out.le_refl _
    split
    · split
      · exact ih _ _
      · exact Out.le_refl _
    split
    · exact ih _ _
    split
    · split
      · exact Out.le_bind (Out.le_refl _) fun t => Out.le_bind (Out.le_refl _) fun u => ih t u
      · exact Out.le_refl _
    split
    · exact Out.le_refl _
    split
    · exact possibleLoop_mono _ _ _ _ _ _ _ (by omega)
    · exact Out.le_refl _

theorem validateSchema_mono (run : RunOrders) (c : Ctx) (s : Schema) {fuel k : Nat} (h : fuel ≤ k) :
    (validateSchema fuel run c s).le (validateSchema k run c s) := by
  refine foldOut_le (fun c p => ?_) _ _
  unfold typeStep
  dsimp only
  split
  · refine Out.le_bind (Out.le_refl _) fun c => Out.le_bind (foldOut_le (fun q i => ?_) _ _) fun _ => Out.le_refl _
    unfold objectInterfaceStep
    split
    · exact Out.le_refl _
    split
    · exact Out.le_refl _
    split
    · exact Out.le_refl _
    · refine Out.le_bind (foldOut_le (fun c f => ?_) _ _) fun _ => Out.le_refl _
      unfold interfaceFieldStep
      split
      · exact Out.le_refl _
      · exact Out.le_bind (sub_mono _ _ _ _ _ _ _ h) fun _ => Out.le_refl _
  · exact Out.le_refl _
  · exact Out.le_refl _

end GQL

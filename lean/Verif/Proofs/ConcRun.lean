/-
One goroutine runs while the others wait.
-/
import Verif.Spec.Concurrent

namespace GQL.Conc

/-- `n` accesses; new cells are at `x`, `x + 1`, … -/
def runFor : Nat → Nat → Memory → Prog Result → Nat × Memory × Prog Result
  | 0, x, m, p => (x, m, p)
  | _ + 1, x, m, .done o => (x, m, .done o)
  | n + 1, x, m, .read a k => match m a with
    | some c => runFor n x m (k c)
    | none => (x, m, .done .panic)
  | n + 1, x, m, .write a c k => match m a with
    | some _ => runFor n x (m.set a c) k
    | none => (x, m, .done .panic)
  | n + 1, x, m, .alloc c k => runFor n (x + 1) (m.set x c) (k x)

theorem setThread_setThread {ts : Nat → Option Thread} {t : Nat} {x y : Option Thread} : setThread (setThread ts t x) t y = setThread ts t y := by
  funext u
  unfold setThread
  by_cases h : u = t <;> simp [h]

theorem runFor_reachable {pf : Bytes → Option Nat} {ok : State → Call → Prop} {t : Nat} {c : Call} : ∀ (n x : Nat) {s : State} {p : Prog Result},
    Reachable pf ok s → s.threads t = some ⟨c, p⟩ → (∀ a, x ≤ a → s.mem a = none) →
    Reachable pf ok { s with mem := (runFor n x s.mem p).2.1, threads := setThread s.threads t (some ⟨c, (runFor n x s.mem p).2.2⟩) } ∧
      ∀ a, (runFor n x s.mem p).1 ≤ a → (runFor n x s.mem p).2.1 a = none := by
  have stay : ∀ {s : State} {p : Prog Result}, s.threads t = some ⟨c, p⟩ → ({ s with threads := setThread s.threads t (some ⟨c, p⟩) } : State) = s := by
    intro s p h
    have : setThread s.threads t (some ⟨c, p⟩) = s.threads := by
      funext u
      unfold setThread
      by_cases e : u = t
      · rw [e, h]; simp
      · simp [e]
    rw [this]
  intro n
  induction n with
  | zero =>
    intro x s p h ht hx
    refine ⟨?_, hx⟩
    show Reachable pf ok { s with threads := setThread s.threads t (some ⟨c, p⟩) }
    rw [stay ht]
    exact h
  | succ n ih =>
    intro x s p h ht hx
    cases p with
    | done o =>
      refine ⟨?_, hx⟩
      show Reachable pf ok { s with threads := setThread s.threads t (some ⟨c, .done o⟩) }
      rw [stay ht]
      exact h
    | read a k =>
      unfold runFor
      cases hm : s.mem a with
      | none => exact ⟨.step h (.step ht (.readWild hm)), hx⟩
      | some d =>
        have := ih x (p := k d) (.step h (.step ht (.read hm))) (by simp [setThread]) hx
        simp only [setThread_setThread] at this
        exact this
    | write a d k =>
      unfold runFor
      cases hm : s.mem a with
      | none => exact ⟨.step h (.step ht (.writeWild hm)), hx⟩
      | some d' =>
        have := ih x (p := k) (.step h (.step ht (.write hm))) (by simp [setThread]) (by
          intro b hb
          have e : b ≠ a := by
            rintro rfl
            rw [hx b hb] at hm
            cases hm
          simp [Memory.set, e, hx b hb])
        simp only [setThread_setThread] at this
        exact this
    | alloc d k =>
      unfold runFor
      have := ih (x + 1) (p := k x) (.step h (.step ht (.alloc (a := x) (hx x (Nat.le_refl x))))) (by simp [setThread]) (by
          intro b hb
          have e : b ≠ x := by omega
          simp [Memory.set, e, hx b (by omega)])
      simp only [setThread_setThread] at this
      exact this

end GQL.Conc

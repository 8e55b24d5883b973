/-
`Parse` looks at nothing after the token that its error is about.
-/
import Verif.Proofs.ParseLocalTop
import Verif.Proofs.ParseTop

namespace GQL
open Spec Spec.Syntax

theorem atCur_atLast {t u : Token} {e : PErr} (h : AtCur t e) (h2 : AtLast u e) : False := by
  cases e with
  | unexpected t0 w => exact h.2 h2.2.2.2
  | atoi l => exact h
  | parseFloat l => exact h
  | todo => exact h2

theorem seen_unique {c r s s' : Toks} {e : PErr} (h : Seen c r s e) (h' : Seen c r s' e) : s = s' := by
  rcases h with ⟨h1, h2, h3⟩ | ⟨h1, c0, t, h2, h3⟩
  · rcases h' with ⟨h1', -, -⟩ | ⟨h1', c0', t', h2', h3'⟩
    · rw [h1, h1']
    · exact (atCur_atLast h3 h3').elim
  · rcases h' with ⟨h1', -, h3'⟩ | ⟨h1', c0', t', h2', h3'⟩
    · exact (atCur_atLast h3' h3).elim
    · rw [h1, h1']

theorem late_of_last {t : Token} {e : PErr} (h : AtLast t e) : OutOfRange e := by
  cases e with
  | unexpected t0 w => obtain ⟨rfl, h⟩ := h; exact h
  | atoi l => trivial
  | parseFloat l => trivial
  | todo => exact h

/-- What `Parse` has looked at when it fails: `s0` and then `t`, which the error is about. -/
theorem parseDefs_local (pf : Bytes → Option Nat) (n : Nat) {ts r : Toks} {e : PErr} (ht : HasEnd ts) (h : parseDefs pf n ts = .err e r) :
    ∃ c s0 t, ts = c ++ r ∧ Eaten c ∧ Seen c r (s0 ++ [t]) e ∧ s0 <+: c ∧
      (∀ rest', HasEnd (s0 ++ t :: rest') → ∃ r', parseDefs pf ((s0 ++ t :: rest').length + 1) (s0 ++ t :: rest') = .err e r') ∧
      (∀ t', Asked e t' → ¬ Described s0 t' → ∀ y, HasEnd (t' :: y) →
        Went (parseDefs pf ((s0 ++ t' :: y).length + 1)) (s0 ++ t' :: y) (t' :: y)) := by
  obtain ⟨c, s, h1, h2, h3, -, -⟩ := errAt_parseDefs pf n 0 ht e r h
  rcases List.eq_nil_or_concat s with hn | ⟨s0, t, rfl⟩
  · exact absurd hn h3.ne_nil
  rw [List.concat_eq_append] at h3
  have all : ∀ m, (∀ ts', HasEnd ts' → ts'.length < m → s0 ++ [t] <+: ts' → ∃ r', parseDefs pf m ts' = .err e r') ∧
    (∀ t', Asked e t' → ¬ Described s0 t' → ∀ y, HasEnd (t' :: y) → (s0 ++ t' :: y).length < m →
      Went (parseDefs pf m) (s0 ++ t' :: y) (t' :: y)) := by
    intro m
    obtain ⟨c', s', h1', h2', h3', h4', h5'⟩ := errAt_parseDefs pf n m ht e r h
    have : c' = c := List.append_cancel_right (h1'.symm.trans h1)
    subst this
    have := seen_unique h3' h3
    subst this
    exact ⟨h4', fun t' ha hd y hy hl => h5' s0 t rfl t' ha hd (fun _ h => h) y hy hl⟩
  refine ⟨c, s0, t, h1, h2, h3, ?_, ?_, ?_⟩
  · rcases h3 with ⟨h3, -, -⟩ | ⟨h3, -⟩
    · exact ⟨[], by rw [List.append_nil]; exact (List.append_inj' h3 rfl).1⟩
    · exact ⟨[t], h3⟩
  · intro rest' ht'
    exact (all _).1 _ ht' (Nat.lt_succ_self _) ⟨rest', by simp⟩
  · intro t' ha hd y hy
    exact (all _).2 t' ha hd y hy (Nat.lt_succ_self _)

/-- The error does not ask for what was found. -/
theorem parseDefs_notAsked (pf : Bytes → Option Nat) {ts r : Toks} {e : PErr} (ht : HasEnd ts) (h : parseDefs pf (ts.length + 1) ts = .err e r)
    {c : Toks} (hc : ts = c ++ r) (hs : Seen c r (c ++ [hd r]) e) (hn : r ≠ []) (hA : Asked e (hd r)) : Described c (hd r) := by
  obtain ⟨c', s0, t, h1, h2, h3, -, -, h5⟩ := parseDefs_local pf _ ht h
  have : c' = c := List.append_cancel_right (h1.symm.trans hc)
  subst this
  obtain ⟨e1, e2⟩ := List.append_inj' (seen_unique h3 hs) rfl
  cases e2
  subst e1
  apply Classical.byContradiction
  intro hD
  cases r with
  | nil => exact hn rfl
  | cons t y =>
    have := h5 t hA hD y (by rw [hc] at ht; exact ht.drop_eaten h2)
    unfold Went at this
    rw [← hc, h] at this
    simp at this

theorem parse_err {pf : Bytes → Option Nat} {input : Bytes} {e : PErr} (h : parse pf input = .err e) :
    ∃ ts r, tokens input = .ret ts ∧ parseDefs pf (ts.length + 1) ts = .err e r := by
  unfold parse at h
  cases ht : tokens input with
  | ret ts =>
    rw [ht] at h
    refine ⟨ts, ?_⟩
    simp only [parseTokens] at h
    cases hp : parseDefs pf (ts.length + 1) ts with
    | ok a r => rw [hp] at h; cases h
    | err e' r => rw [hp] at h; cases h; exact ⟨r, rfl, rfl⟩
    | panic => rw [hp] at h; cases h
    | oof => rw [hp] at h; cases h
  | panic => rw [ht] at h; cases h
  | oof => rw [ht] at h; cases h

theorem parse_of_defs {pf : Bytes → Option Nat} {input : Bytes} {ts r : Toks} {e : PErr} (ht : tokens input = .ret ts)
    (h : parseDefs pf (ts.length + 1) ts = .err e r) : parse pf input = .err e := by
  unfold parse
  rw [ht]
  simp only [parseTokens]
  rw [h]

end GQL

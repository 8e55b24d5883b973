/-
Line and column counting.
-/
import Verif.Proofs.BlockSpec

namespace GQL
open Spec

theorem lineAfter_lf {pre : List Char} (h : CRfree pre) : lineAfter pre = 1 + pre.count '\n' := by
  rw [lineAfter, splitLines_eq h, splitLF_length]

theorem colSkip_split (s : List Char) (lp : Nat) :
    colSkip lp s = (if (splitLF s).length = 1 then lp else 0) + ((splitLF s).getLastD []).length := by
  induction s generalizing lp with
  | nil => rfl
  | cons c s ih =>
    rw [colSkip_cons, ih, splitLF]
    have hne := splitLF_ne_nil s
    by_cases hc : c = '\n'
    · rw [if_pos hc, if_pos hc]
      cases e : splitLF s with
      | nil => exact absurd e hne
      | cons a r => simp
    · rw [if_neg hc, if_neg hc]
      cases e : splitLF s with
      | nil => exact absurd e hne
      | cons a r =>
        cases r with
        | nil => simp; omega
        | cons b r => simp [List.getLast?_cons_cons]

theorem columnAfter_lf {pre : List Char} (h : CRfree pre) : columnAfter pre = colSkip 0 pre + 1 := by
  rw [columnAfter, splitLines_eq h, colSkip_split]; simp

theorem crlf_left {p : Bool} {a b : List Char} (h : crlf p (a ++ b)) : crlf p a := by
  induction a generalizing p with
  | nil => trivial
  | cons c a ih => exact ⟨h.1, ih h.2⟩

theorem lineAfter_crlf {n : Nat} {pre : List Char} (hn : pre.length ≤ n) (h : crlf false pre) :
    lineAfter pre = 1 + pre.count '\r' := by
  unfold lineAfter
  induction n generalizing pre with
  | zero => cases pre with
    | nil => rfl
    | cons => simp at hn
  | succ n ih =>
    obtain _ | ⟨c, s⟩ := pre
    · rfl
    have hne : ∀ s, splitLines s ≠ [] := by
      intro s
      cases s with
      | nil => simp [splitLines]
      | cons c s =>
        unfold splitLines
        split
        · simp
        · simp
        · split
          · simp
          · split <;> simp
    by_cases hc : c = '\r'
    · subst hc
      by_cases hs : ∃ t, s = '\n' :: t
      · obtain ⟨t, rfl⟩ := hs
        rw [show splitLines ('\r' :: '\n' :: t) = [] :: splitLines t by rw [splitLines], List.length_cons,
          ih (by simp at hn; omega) h.2.2, List.count_cons_self, List.count_cons_of_ne (by decide)]
        omega
      · have h' : crlf false s := by
          cases s with
          | nil => trivial
          | cons d s => exact ⟨fun e => absurd ⟨s, by rw [e]⟩ hs, h.2.2⟩
        have : splitLines ('\r' :: s) = [] :: splitLines s := by
          rw [splitLines]
          · rfl
          · intro t _ ht; exact hs ⟨t, ht⟩
        rw [this, List.length_cons, ih (by simp at hn; omega) h', List.count_cons_self]
        omega
    · have hc10 : c ≠ '\n' := fun e => by have := h.1 e; cases this
      have : splitLines (c :: s) = match splitLines s with
          | [] => [[c]]
          | l :: ls => (c :: l) :: ls := by
        rw [splitLines]
        · rw [if_neg (by simp [lineTerm, hc, hc10])]; rfl
        · rintro t rfl _; exact hc rfl
      have h2 : crlf false s := by
        have := h.2
        rwa [show (c == '\r') = false by simpa using hc] at this
      rw [this, List.count_cons_of_ne hc, ← ih (by simp at hn; omega) h2]
      cases e : splitLines s with
      | nil => exact absurd e (hne s)
      | cons a r => rfl

/-- Tokens lie in the text. -/
theorem lex_items {B : List Char → List Char → List Char → Prop} {pre s rest : List Char} {items}
    (h : Lex B pre s items rest) : ∀ i ∈ items, ∃ post, pre ++ s = i.before ++ i.chars ++ post := by
  induction h with
  | done => intro i hi; cases hi
  | ignore _ _ ih =>
    intro i hi; obtain ⟨post, e⟩ := ih i hi; exact ⟨post, by rw [← e]; simp⟩
  | comment _ _ _ ih =>
    intro i hi; obtain ⟨post, e⟩ := ih i hi; exact ⟨post, by rw [← e]; simp⟩
  | token _ _ ih =>
    intro i hi
    rcases List.mem_cons.1 hi with rfl | hi
    · exact ⟨_, by simp; rfl⟩
    · obtain ⟨post, e⟩ := ih i hi; exact ⟨post, by rw [← e]; simp⟩

end GQL

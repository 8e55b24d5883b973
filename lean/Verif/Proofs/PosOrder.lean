/-
Positions increase.
-/
import Verif.Proofs.LexPos

namespace GQL
open Spec

/-- `p` is not after `q`. -/
def PLe (p q : Place) : Prop := p.line < q.line ∨ (p.line = q.line ∧ p.col ≤ q.col)

theorem PLe.refl (p : Place) : PLe p p := .inr ⟨rfl, Nat.le_refl _⟩
theorem PLe.trans {p q r : Place} (h1 : PLe p q) (h2 : PLe q r) : PLe p r := by
  unfold PLe at *; omega

theorem le_ignoreStep (m : Gap) (p : Place) (c : Char) : PLe p (ignoreStep m p c).2 := by
  unfold ignoreStep PLe
  by_cases h1 : c = '\r'
  · simp [h1, Place.newLine]
  by_cases h2 : c = '\n'
  · by_cases h3 : m = .plain <;> simp [h2, h3, Place.newLine, Place.next]
  by_cases h3 : c = '#' <;> simp [h1, h2, h3, Place.next]

theorem le_gapStep (s : Gap × Place) (c : Char) : PLe s.2 (gapStep s c).2 := by
  obtain ⟨m, p⟩ := s
  cases m with
  | plain => exact le_ignoreStep _ _ _
  | afterCR => exact le_ignoreStep _ _ _
  | comment =>
    show PLe p (if c = '\r' then _ else _ : Gap × Place).2
    by_cases h1 : c = '\r'
    · simp [h1, PLe, Place.newLine]
    by_cases h2 : c = '\n' <;> simp [h1, h2, PLe, Place.newLine, Place.next]
  | commentCR =>
    show PLe p (if c = '\n' then _ else _ : Gap × Place).2
    by_cases h2 : c = '\n'
    · simp [h2, PLe]
    · rw [if_neg h2]; exact le_ignoreStep _ _ _

theorem le_fold (s : Gap × Place) (gap : List Char) : PLe s.2 (gap.foldl gapStep s).2 := by
  induction gap generalizing s with
  | nil => exact .refl _
  | cons c gap ih => exact (le_gapStep s c).trans (ih _)

theorem le_skip (p : Place) (gap : List Char) : PLe p (p.skip gap) := le_fold (.plain, p) gap

theorem emptyAtEnd_le (text : List Char) (i : Item) : emptyAtEnd text i ≤ 1 := by
  unfold emptyAtEnd; split <;> omega

theorem emptyAtEnd_len (text : List Char) (i : Item) (h : emptyAtEnd text i = 1) : i.chars.length = 2 := by
  unfold emptyAtEnd at h
  split at h
  · rename_i hh; rw [hh.1]; rfl
  · omega

theorem le_finish (text : List Char) (p : Place) (read : Nat) (i : Item) : PLe p (p.finish text read i) := by
  have h1 := le_skip p (i.before.drop read)
  have h2 := emptyAtEnd_le text i
  have h3 := emptyAtEnd_len text i
  unfold Place.finish Place.begin PLe at *
  dsimp only
  by_cases h4 : emptyAtEnd text i = 1
  · have := h3 h4; omega
  · omega

/-- One position is before another. -/
def PosLt (a b : Nat × Nat) : Prop := a.1 < b.1 ∨ (a.1 = b.1 ∧ a.2 < b.2)

theorem pos_above {text : List Char} {p : Place} {read : Nat} {items : List Item} :
    ∀ x ∈ items.zip (positions text p read items), emptyAtEnd text x.1 = 0 → PosLt (p.line, p.col) x.2 := by
  induction items generalizing p read with
  | nil => intro x hx; cases hx
  | cons i is ih =>
    intro x hx he
    rw [positions, List.zip_cons_cons] at hx
    rcases List.mem_cons.1 hx with rfl | hx
    · have := le_skip p (i.before.drop read)
      dsimp only at he
      unfold PosLt Place.begin PLe at *
      dsimp only
      omega
    · have h1 := ih x hx he
      have h2 := le_finish text p read i
      unfold PosLt PLe at *
      dsimp only at *
      omega

theorem pos_finish (text : List Char) (p : Place) (read : Nat) (i : Item) (hi : i.chars ≠ []) :
    PLe ⟨(p.begin read i).line, (p.begin read i).col + 1 - emptyAtEnd text i⟩ (p.finish text read i) := by
  have h2 := emptyAtEnd_le text i
  have h3 := emptyAtEnd_len text i
  have h4 : 0 < i.chars.length := List.length_pos_iff.2 hi
  unfold Place.finish PLe
  dsimp only
  by_cases h5 : emptyAtEnd text i = 1
  · have := h3 h5; omega
  · omega

theorem pos_pairwise {text : List Char} {p : Place} {read : Nat} {items : List Item} (hi : ∀ i ∈ items, i.chars ≠ []) :
    (items.zip (positions text p read items)).Pairwise (fun a b => emptyAtEnd text b.1 = 0 → PosLt a.2 b.2) := by
  induction items generalizing p read with
  | nil => exact List.Pairwise.nil
  | cons i is ih =>
    rw [positions, List.zip_cons_cons]
    refine List.Pairwise.cons (fun x hx he => ?_) (ih fun j hj => hi j (List.mem_cons_of_mem _ hj))
    have h1 := pos_above x hx he
    have h2 := pos_finish text p read i (hi i (List.mem_cons_self ..))
    unfold PosLt PLe at *
    dsimp only at *
    omega

theorem le_end {text : List Char} {p : Place} {read : Nat} {items : List Item} : PLe p (endPlace text p read items) := by
  induction items generalizing p read with
  | nil => exact le_skip _ _
  | cons i is ih => exact (le_finish text p read i).trans ih

theorem pos_end {text : List Char} {p : Place} {read : Nat} {items : List Item} (hi : ∀ i ∈ items, i.chars ≠ []) :
    ∀ x ∈ positions text p read items, PLe ⟨x.1, x.2⟩ (endPlace text p read items) := by
  induction items generalizing p read with
  | nil => intro x hx; cases hx
  | cons i is ih =>
    intro x hx
    rw [positions] at hx
    rw [endPlace]
    rcases List.mem_cons.1 hx with rfl | hx
    · exact (pos_finish text p read i (hi i (List.mem_cons_self ..))).trans le_end
    · exact ih (fun j hj => hi j (List.mem_cons_of_mem _ hj)) x hx

theorem lex_chars_ne {B : List Char → List Char → List Char → Prop} {pre text rest : List Char} {items : List Item}
    (hB : ∀ s tok rest, Lexeme B s tok rest → ∃ lx, s = lx ++ rest ∧ lx ≠ []) (h : Lex B pre text items rest) :
    ∀ i ∈ items, i.chars ≠ [] := by
  induction h with
  | done => intro i hi; cases hi
  | ignore _ _ ih => exact ih
  | comment _ _ _ ih => exact ih
  | token hl _ ih =>
    intro i hi
    rcases List.mem_cons.1 hi with rfl | hi
    · obtain ⟨lx', e, hne⟩ := hB _ _ _ hl
      rw [List.append_cancel_right e]; exact hne
    · exact ih i hi

end GQL

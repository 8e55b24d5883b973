/-
Going on differently after some of the tokens of a text.
-/
import Verif.Proofs.DumpLex
import Verif.Proofs.ParseVia

namespace GQL
open Spec

/-- Cutting a text between tokens: the text before keeps its tokens, whatever comes after a line break. -/
theorem lex_cut {pre text rest : List Char} {items : List Item} (h : Lex GoBlock pre text items rest) :
    ∀ {i1 i2 : List Item}, items = i1 ++ i2 → ∃ a b, text = a ++ b ∧
      (∀ i l, i2 = i :: l → ∃ r, Lexeme GoBlock b i.tok r) ∧ (i2 = [] → b = rest) ∧
      (∀ pre', ∃ j, Lex GoBlock pre' a j [] ∧ j.map (·.tok) = i1.map (·.tok)) ∧
      ∀ pre' s its, (∀ p, ∃ j, Lex GoBlock p ('\n' :: s) j [] ∧ j.map (·.tok) = its) →
        ∃ j, Lex GoBlock pre' (a ++ '\n' :: s) j [] ∧ j.map (·.tok) = i1.map (·.tok) ++ its := by
  induction h with
  | done pre text =>
    intro i1 i2 he
    obtain ⟨rfl, rfl⟩ := List.append_eq_nil_iff.1 he.symm
    refine ⟨[], text, rfl, (fun i l h => by cases h), fun _ => rfl, fun p => ⟨[], .done _ _, rfl⟩, ?_⟩
    intro p s its hs
    obtain ⟨j, h1, h2⟩ := hs p
    exact ⟨j, h1, by rw [h2]; rfl⟩
  | @ignore pre c text items rest hc hl ih =>
    intro i1 i2 he
    obtain ⟨a, b, rfl, k1, k2, k3, k4⟩ := ih he
    refine ⟨c :: a, b, rfl, k1, k2, fun p => ?_, fun p s its hs => ?_⟩
    · obtain ⟨j, h1, h2⟩ := k3 (p ++ [c])
      exact ⟨j, .ignore hc h1, h2⟩
    · obtain ⟨j, h1, h2⟩ := k4 (p ++ [c]) s its hs
      exact ⟨j, .ignore hc h1, h2⟩
  | @comment pre body text items rest h1 h2 hl ih =>
    intro i1 i2 he
    obtain ⟨a, b, rfl, k1, k2, k3, k4⟩ := ih he
    refine ⟨'#' :: body ++ a, b, by simp, k1, k2, fun p => ?_, fun p s its hs => ?_⟩
    · obtain ⟨j, g1, g2⟩ := k3 (p ++ '#' :: body)
      refine ⟨j, .comment h1 ?_ g1, g2⟩
      rintro c t rfl
      exact h2 c _ rfl
    · obtain ⟨j, g1, g2⟩ := k4 (p ++ '#' :: body) s its hs
      refine ⟨j, ?_, g2⟩
      have := Lex.comment (pre := p) (text := a ++ '\n' :: s) h1 ?_ g1
      · simpa using this
      · intro c t e
        cases a with
        | nil => cases e; rfl
        | cons d a => cases e; exact h2 _ _ rfl
  | @token pre lx text tok items rest hlx hl ih =>
    intro i1 i2 he
    cases i1 with
    | nil =>
      refine ⟨[], lx ++ text, rfl, ?_, ?_, fun p => ⟨[], .done _ _, rfl⟩, ?_⟩
      · rintro i l rfl
        cases he
        exact ⟨text, hlx⟩
      · rintro rfl
        cases he
      · intro p s its hs
        obtain ⟨j, g1, g2⟩ := hs p
        exact ⟨j, g1, by rw [g2]; rfl⟩
    | cons i i1 =>
      cases he
      obtain ⟨a, b, rfl, k1, k2, k3, k4⟩ := ih rfl
      refine ⟨lx ++ a, b, by simp, k1, k2, fun p => ?_, fun p s its hs => ?_⟩
      · obtain ⟨j, g1, g2⟩ := k3 (p ++ lx)
        refine ⟨_, .token (lexeme_follow hlx rfl ?_) g1, by simp [g2]⟩
        rintro c t rfl
        exact .inr ⟨_, rfl⟩
      · obtain ⟨j, g1, g2⟩ := k4 (p ++ lx) s its hs
        have := Lex.token (pre := p) (lexeme_follow hlx rfl (rest' := a ++ '\n' :: s) ?_) g1
        · exact ⟨_, by simpa using this, by simp [g2]⟩
        · intro c t e
          cases a with
          | nil => cases e; exact .inl (.inl rfl)
          | cons d a => cases e; exact .inr ⟨_, rfl⟩

/-- A plain token is written as it is. -/
theorem plain_reads {t : Token} (h : plainTok t = true) : ∃ o, J false true o [tk t.kind t.lit] := by
  obtain ⟨k, l, ln, c⟩ := t
  unfold plainTok at h
  dsimp only at h ⊢
  cases k with
  | name =>
    simp only [Bool.and_eq_true, Bool.not_eq_true', List.all_eq_true, Bool.or_eq_true, decide_eq_true_eq] at h
    obtain ⟨h1, h2⟩ := h
    refine ⟨_, J.name (n := l) ?_⟩
    have hchar : ∀ b, (97 ≤ b ∧ b ≤ 122 ∨ 65 ≤ b ∧ b ≤ 90) → nameStart (Char.ofNat b) = true ∧ nameCont (Char.ofNat b) = true ∧ (Char.ofNat b).toNat = b := by
      intro b hb
      have : b < 128 := by omega
      have all : ∀ b, b < 128 → (97 ≤ b ∧ b ≤ 122 ∨ 65 ≤ b ∧ b ≤ 90) → nameStart (Char.ofNat b) = true ∧ nameCont (Char.ofNat b) = true ∧ (Char.ofNat b).toNat = b := by decide
      exact all b this hb
    have hu : l = utf8 (l.map Char.ofNat) := by
      rw [utf8_ascii, List.map_map]
      · symm
        rw [List.map_congr_left (g := id), List.map_id]
        exact fun b hb => (hchar b (h2 b hb)).2.2
      · intro c hc
        obtain ⟨b, hb, rfl⟩ := List.mem_map.1 hc
        rw [(hchar b (h2 b hb)).2.2]
        have := h2 b hb
        omega
    cases l with
    | nil => cases h1
    | cons b bs =>
      refine ⟨Char.ofNat b, bs.map Char.ofNat, hu, (hchar b (h2 b (by simp))).1, ?_⟩
      intro d hd
      obtain ⟨x, hx, rfl⟩ := List.mem_map.1 hd
      exact (hchar x (h2 x (by simp [hx]))).2.1
  | punctuator =>
    simp only [Bool.or_eq_true, beq_iff_eq, List.any_eq_true] at h
    rcases h with rfl | ⟨b, hb, rfl⟩
    · exact ⟨_, J.dots.weak⟩
    · simp only [List.mem_cons, List.not_mem_nil, or_false] at hb
      rcases hb with rfl | rfl | rfl | rfl | rfl | rfl | rfl | rfl | rfl | rfl | rfl | rfl | rfl
      · exact ⟨_, (J.punct '!').hard.weak⟩
      · exact ⟨_, (J.punct '$').hard.weak⟩
      · exact ⟨_, (J.punct '&').hard.weak⟩
      · exact ⟨_, (J.punct '(').hard.weak⟩
      · exact ⟨_, (J.punct ')').hard.weak⟩
      · exact ⟨_, (J.punct ':').hard.weak⟩
      · exact ⟨_, (J.punct '=').hard.weak⟩
      · exact ⟨_, (J.punct '@').hard.weak⟩
      · exact ⟨_, (J.punct '[').hard.weak⟩
      · exact ⟨_, (J.punct ']').hard.weak⟩
      · exact ⟨_, (J.punct '{').hard.weak⟩
      · exact ⟨_, (J.punct '|').hard.weak⟩
      · exact ⟨_, (J.punct '}').hard.weak⟩
  | _ => cases h

/-- Plain tokens are written one after the other, with spaces between them. -/
theorem plains_read : ∀ {w : Toks}, Pl w → ∃ o, J true true o (w.map fun t => tk t.kind t.lit)
  | [], _ => ⟨_, J.skip⟩
  | t :: w, h => by
    obtain ⟨o, h1⟩ := plain_reads (h t (by simp))
    obtain ⟨o', h2⟩ := plains_read (w := w) (fun u hu => h u (by simp [hu]))
    have hb : J true false (write b!" ") [] := J.blank c!" " rfl (by decide) (by simp)
    exact ⟨_, (hb.seq (h1.seq h2)).eqs rfl rfl⟩

end GQL

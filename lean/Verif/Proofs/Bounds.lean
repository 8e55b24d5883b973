/-
How large the counters of the lexer get (for C91): neither the line nor the column grows faster than the position.
-/
import Verif.Props.C68

namespace GQL

/-- The lexer goes forward in the same input, and neither the line nor the column grows more than the position. -/
structure Gr (l l' : Lexer) : Prop where
  input : l'.input = l.input
  le : l.pos ≤ l'.pos
  bound : l'.pos ≤ l.input.length
  line : l'.line + l.pos ≤ l.line + l'.pos
  lpos : l'.lpos + l.pos ≤ l.lpos + l'.pos

theorem Gr.refl {l : Lexer} (h : l.pos ≤ l.input.length) : Gr l l := ⟨rfl, Nat.le_refl _, h, Nat.le_refl _, Nat.le_refl _⟩

theorem Gr.trans {a b c : Lexer} (h1 : Gr a b) (h2 : Gr b c) : Gr a c :=
  ⟨h2.input.trans h1.input, Nat.le_trans h1.le h2.le, h1.input ▸ h2.bound,
    by have := h1.line; have := h2.line; omega, by have := h1.lpos; have := h2.lpos; omega⟩

theorem Gr.inv {a b : Lexer} (h : Gr a b) : b.pos ≤ b.input.length := h.input ▸ h.bound

/-- A read, and the read undone. -/
theorem rd_gr {l l' : Lexer} {r w : Nat} (e : l.rd = (r, w, l')) (h : l.pos ≤ l.input.length) :
    Gr l l' ∧ Gr l (l'.unread w) ∧ l.pos + w ≤ l'.pos ∧ l'.line = l.line ∧ (r ≠ 0 → l.pos < l'.pos) ∧ l'.lpos ≤ l.lpos + 1 := by
  rcases rd_cases l h with ⟨-, h2, h3⟩ | ⟨b, h2, h3, h4⟩ | ⟨b, h2, h3, h4, h5⟩ | ⟨b, r', w', h2, h3, h4, h5, h6, h7⟩
  · rw [h3] at e; cases e
    refine ⟨.refl h, ⟨rfl, ?_, ?_, ?_, ?_⟩, ?_, rfl, ?_, ?_⟩ <;> simp [Lexer.unread] <;> omega
  · rw [h4] at e; cases e
    have hlt : l.pos < l.input.length := by
      rcases Nat.lt_or_ge l.pos l.input.length with h' | h'
      · exact h'
      · rw [List.getElem?_eq_none h'] at h2; cases h2
    refine ⟨⟨rfl, ?_, ?_, ?_, ?_⟩, ⟨rfl, ?_, ?_, ?_, ?_⟩, ?_, rfl, ?_, ?_⟩ <;> simp [Lexer.unread] <;> omega
  · rw [h5] at e; cases e
    refine ⟨⟨rfl, ?_, ?_, ?_, ?_⟩, ⟨rfl, ?_, ?_, ?_, ?_⟩, ?_, rfl, ?_, ?_⟩ <;> simp [Lexer.unread] <;> omega
  · rw [h7] at e; cases e
    refine ⟨⟨rfl, ?_, ?_, ?_, ?_⟩, ⟨rfl, ?_, ?_, ?_, ?_⟩, ?_, rfl, ?_, ?_⟩ <;> simp [Lexer.unread] <;> omega

theorem rd_gr' {l : Lexer} (h : l.pos ≤ l.input.length) : Gr l l.rd.2.2 := by
  rcases e : l.rd with ⟨r, w, l'⟩; exact (rd_gr e h).1

/-- One more line for one more byte, from the first column. -/
theorem Gr.newline {l l1 : Lexer} (h : Gr l l1) (hl : l1.line = l.line) (hp : l.pos < l1.pos) : Gr l { l1 with line := l1.line + 1, lpos := 0 } := by
  refine ⟨h.input, h.le, h.bound, ?_, ?_⟩
  · show l1.line + 1 + l.pos ≤ l.line + l1.pos; omega
  · show 0 + l.pos ≤ l.lpos + l1.pos; omega

theorem Gr.col0 {l l1 : Lexer} (h : Gr l l1) : Gr l { l1 with lpos := 0 } :=
  ⟨h.input, h.le, h.bound, h.line, by show 0 + l.pos ≤ l.lpos + l1.pos; have := h.le; omega⟩

theorem rns_gr : ∀ (n : Nat) (cr : Bool) {l l0 : Lexer} {r w : Nat}, l.pos ≤ l.input.length → readNextSignificant n cr l = .ret (r, w, l0) → Gr l l0 := by
  intro n
  induction n with
  | zero => intro cr l l0 r w _ e; cases e
  | succ n ih =>
    intro cr l l0 r w h e
    unfold readNextSignificant at e
    rcases e1 : l.rd with ⟨r1, w1, l1⟩
    obtain ⟨g1, -, -, g3, g4, -⟩ := rd_gr e1 h
    rw [e1] at e; dsimp only at e
    by_cases q1 : r1 = 13
    · rw [if_pos q1] at e
      have := g1.newline g3 (g4 (by omega))
      exact this.trans (ih _ this.inv e)
    rw [if_neg q1] at e
    by_cases q2 : r1 = 10
    · rw [if_pos q2] at e
      by_cases q3 : cr = true
      · rw [if_pos q3] at e; exact g1.trans (ih _ g1.inv e)
      · rw [if_neg q3] at e
        have := g1.newline g3 (g4 (by omega))
        exact this.trans (ih _ this.inv e)
    rw [if_neg q2] at e
    by_cases q3 : r1 = 9 ∨ r1 = 32 ∨ r1 = 44 ∨ r1 = 0xFEFF
    · rw [if_pos q3] at e; exact g1.trans (ih _ g1.inv e)
    · rw [if_neg q3] at e; cases e; exact g1

theorem nameLoop_gr : ∀ (n : Nat) {l l0 : Lexer}, l.pos ≤ l.input.length → scanNameLoop n l = .ret l0 → Gr l l0 := by
  intro n
  induction n with
  | zero => intro l l0 _ e; cases e
  | succ n ih =>
    intro l l0 h e
    unfold scanNameLoop at e
    rcases e1 : l.rd with ⟨r1, w1, l1⟩
    obtain ⟨g1, g2, -⟩ := rd_gr e1 h
    rw [e1] at e; dsimp only at e
    by_cases q1 : isNameCont r1 = true
    · rw [if_pos q1] at e; exact g1.trans (ih g1.inv e)
    rw [if_neg q1] at e
    by_cases q2 : r1 = 0
    · rw [if_pos q2] at e; cases e; exact g1
    · rw [if_neg q2] at e; cases e; exact g2

theorem scanName_gr {l l' : Lexer} {t : Token} (h : l.pos ≤ l.input.length) (e : scanName l = .ret (t, l')) : Gr l l' := by
  unfold scanName at e
  cases h1 : scanNameLoop l.fuel l with
  | panic => rw [h1] at e; cases e
  | oof => rw [h1] at e; cases e
  | ret l0 =>
    rw [h1] at e; dsimp only at e
    cases hs : slice l0.input (l.pos - 1) l0.pos with
    | none => rw [hs] at e; cases e
    | some x => rw [hs] at e; cases e; exact nameLoop_gr _ h h1

theorem scanPunct_gr {l l' : Lexer} {t : Token} {r w : Nat} (h : l.pos ≤ l.input.length) (e : scanPunctuator l r w = .ret (t, l')) : Gr l l' := by
  unfold scanPunctuator at e
  by_cases q : r = 46
  · rw [if_pos q] at e
    rcases e1 : l.rd with ⟨r1, w1, l1⟩
    obtain ⟨g1, -⟩ := rd_gr e1 h
    rcases e2 : l1.rd with ⟨r2, w2, l2⟩
    obtain ⟨g2, -⟩ := rd_gr e2 g1.inv
    rw [e1] at e; dsimp only at e
    rw [e2] at e; dsimp only at e
    by_cases q2 : r1 ≠ 46 ∨ r2 ≠ 46
    · rw [if_pos q2] at e; cases e; exact g1.trans g2
    · rw [if_neg q2] at e; cases e; exact g1.trans g2
  · rw [if_neg q] at e
    cases hs : slice l.input (l.pos - w) l.pos with
    | none => rw [hs] at e; cases e
    | some x => rw [hs] at e; cases e; exact .refl h

/-- The last read can be undone. -/
def Undo (l : Lexer) (r w : Nat) (l1 : Lexer) : Prop := Gr l l1 ∧ (r ≠ 0 → Gr l (l1.unread w))

theorem digitsLoop_gr : ∀ (n : Nat) {l l0 : Lexer} {r w}, l.pos ≤ l.input.length → readDigitsLoop n l = .ret (r, w, l0) → Undo l r w l0 := by
  intro n
  induction n with
  | zero => intro l l0 r w _ e; cases e
  | succ n ih =>
    intro l l0 r w h e
    unfold readDigitsLoop at e
    rcases e1 : l.rd with ⟨r1, w1, l1⟩
    obtain ⟨g1, g2, -⟩ := rd_gr e1 h
    rw [e1] at e; dsimp only at e
    by_cases q1 : isDigit r1 = true
    · rw [if_pos q1] at e
      obtain ⟨a, b⟩ := ih g1.inv e
      exact ⟨g1.trans a, fun hr => g1.trans (b hr)⟩
    · rw [if_neg q1] at e; cases e; exact ⟨g1, fun _ => g2⟩

theorem readDigits_gr {l : Lexer} {r : Nat} {r2 w2 l2} (h : l.pos ≤ l.input.length) (e : readDigits l r = .ret (.ok (r2, w2, l2))) : Undo l r2 w2 l2 := by
  unfold readDigits at e
  by_cases q : isDigit r = true
  · rw [if_pos q] at e
    cases h1 : readDigitsLoop l.fuel l with
    | panic => rw [h1] at e; cases e
    | oof => rw [h1] at e; cases e
    | ret y => obtain ⟨a, b, c⟩ := y; rw [h1] at e; cases e; exact digitsLoop_gr _ h h1
  · rw [if_neg q] at e; cases e

theorem Undo.after {a b c : Lexer} {r w : Nat} (h : Gr a b) (u : Undo b r w c) : Undo a r w c := ⟨h.trans u.1, fun hr => h.trans (u.2 hr)⟩

theorem rd_undo {l l' : Lexer} {r w : Nat} (e : l.rd = (r, w, l')) (h : l.pos ≤ l.input.length) : Undo l r w l' :=
  ⟨(rd_gr e h).1, fun _ => (rd_gr e h).2.1⟩

theorem numberEnd_gr {k l0 l l' : Lexer} {f : Bool} {r w : Nat} {t : Token} (hl : Undo k r w l) (e : numberEnd l0 f r w l = .ret (t, l')) : Gr k l' := by
  unfold numberEnd at e
  dsimp only at e
  by_cases q : r ≠ 0
  · rw [if_pos q] at e
    split at e
    · cases e
    · cases e; exact hl.2 q
  · rw [if_neg q] at e
    split at e
    · cases e
    · cases e; exact hl.1

theorem readIf_gr {c : Bool} {r : Nat} {l : Lexer} (h : l.pos ≤ l.input.length) : Gr l (readIf c r l).2 := by
  unfold readIf
  cases c with
  | false => exact .refl h
  | true => exact rd_gr' h

theorem numberExp_gr {k l0 l l' : Lexer} {f : Bool} {r w : Nat} {t : Token} (hl : Undo k r w l) (e : numberExp l0 f r w l = .ret (t, l')) : Gr k l' := by
  unfold numberExp at e
  by_cases q : r = 101 ∨ r = 69
  · rw [if_pos q] at e
    rcases e1 : l.rd with ⟨r1, w1, l1⟩
    obtain ⟨g1, -⟩ := rd_gr e1 hl.1.inv
    rw [e1] at e; dsimp only at e
    have g2 := readIf_gr (c := decide (r1 = 43 ∨ r1 = 45)) (r := r1) g1.inv
    generalize readIf (decide (r1 = 43 ∨ r1 = 45)) r1 l1 = s at *
    have g := hl.1.trans (g1.trans g2)
    cases h : readDigits s.2 s.1 with
    | panic => rw [h] at e; cases e
    | oof => rw [h] at e; cases e
    | ret x =>
      rw [h] at e
      cases x with
      | error m => cases e; exact g
      | ok x => obtain ⟨a, b, c⟩ := x; exact numberEnd_gr (.after g (readDigits_gr g.inv h)) e
  · rw [if_neg q] at e; exact numberEnd_gr hl e

theorem numberFrac_gr {k l0 l l' : Lexer} {r w : Nat} {t : Token} (hl : Undo k r w l) (e : numberFrac l0 r w l = .ret (t, l')) : Gr k l' := by
  unfold numberFrac at e
  by_cases q : r = 46
  · rw [if_pos q] at e
    rcases e1 : l.rd with ⟨r1, w1, l1⟩
    obtain ⟨g1, -⟩ := rd_gr e1 hl.1.inv
    rw [e1] at e; dsimp only at e
    have g := hl.1.trans g1
    cases h : readDigits l1 r1 with
    | panic => rw [h] at e; cases e
    | oof => rw [h] at e; cases e
    | ret x =>
      rw [h] at e
      cases x with
      | error m => cases e; exact g
      | ok x => obtain ⟨a, b, c⟩ := x; exact numberExp_gr (.after g (readDigits_gr g.inv h)) e
  · rw [if_neg q] at e; exact numberExp_gr hl e

theorem scanNumber_gr {l l' : Lexer} {r : Nat} {t : Token} (h : l.pos ≤ l.input.length) (e : scanNumber l r = .ret (t, l')) : Gr l l' := by
  unfold scanNumber at e
  dsimp only at e
  have g := readIf_gr (c := decide (r = 45)) (r := r) h
  generalize readIf (decide (r = 45)) r l = s at *
  by_cases q : s.1 = 48
  · rw [if_pos q] at e
    rcases e1 : s.2.rd with ⟨r1, w1, l1⟩
    have u := Undo.after g (rd_undo e1 g.inv)
    rw [e1] at e; dsimp only at e
    by_cases q1 : isDigit r1 = true
    · rw [if_pos q1] at e; cases e; exact u.1
    · rw [if_neg q1] at e; exact numberFrac_gr u e
  · rw [if_neg q] at e
    cases h : readDigits s.2 s.1 with
    | panic => rw [h] at e; cases e
    | oof => rw [h] at e; cases e
    | ret x =>
      rw [h] at e
      cases x with
      | error m => cases e; exact g
      | ok x => obtain ⟨a, b, c⟩ := x; exact numberFrac_gr (.after g (readDigits_gr g.inv h)) e

theorem skipComment_gr : ∀ (n : Nat) (cr : Bool) {l l0 : Lexer}, l.pos ≤ l.input.length → skipComment n cr l = .ret l0 → Gr l l0 := by
  intro n
  induction n with
  | zero => intro cr l l0 _ e; cases e
  | succ n ih =>
    intro cr l l0 h e
    unfold skipComment at e
    rcases e1 : l.rd with ⟨r1, w1, l1⟩
    obtain ⟨g1, g2, -, g3, g4, -⟩ := rd_gr e1 h
    rw [e1] at e; dsimp only at e
    by_cases q1 : r1 = 0
    · rw [if_pos q1] at e; cases e; exact g1
    rw [if_neg q1] at e
    by_cases q2 : (cr && decide (r1 = 10)) = true
    · rw [if_pos q2] at e; cases e; exact g1.col0
    rw [if_neg q2] at e
    by_cases q3 : (cr && decide (r1 ≠ 10)) = true
    · rw [if_pos q3] at e; cases e; exact g2
    rw [if_neg q3] at e
    by_cases q4 : r1 = 13
    · rw [if_pos q4] at e
      have := g1.newline g3 (g4 q1)
      exact this.trans (ih _ this.inv e)
    rw [if_neg q4] at e
    by_cases q5 : r1 = 10
    · rw [if_pos q5] at e; cases e; exact g1.newline g3 (g4 q1)
    · rw [if_neg q5] at e; exact g1.trans (ih _ g1.inv e)

theorem escapedChar_gr {l : Lexer} (h : l.pos ≤ l.input.length) : Gr l (escapedChar l).2 := by
  unfold escapedChar
  rcases e1 : l.rd with ⟨r, w, l1⟩
  obtain ⟨g1, -⟩ := rd_gr e1 h
  dsimp only
  cases simpleEscape r with
  | some x => exact g1
  | none =>
    dsimp only
    by_cases q : r = 117
    · rw [if_pos q]
      rcases e2 : l1.rd with ⟨a, wa, k2⟩
      rcases e3 : k2.rd with ⟨b, wb, k3⟩
      rcases e4 : k3.rd with ⟨c, wc, k4⟩
      rcases e5 : k4.rd with ⟨d, wd, k5⟩
      have g2 := g1.trans (rd_gr e2 g1.inv).1
      have g3 := g2.trans (rd_gr e3 g2.inv).1
      have g4 := g3.trans (rd_gr e4 g3.inv).1
      have g5 := g4.trans (rd_gr e5 g4.inv).1
      dsimp only
      cases unicodeCodePointToRune a b c d with
      | none => exact g5
      | some y => exact g5
    · rw [if_neg q]; exact g1

theorem pass1_gr : ∀ (n : Nat) (esc : Bool) {l : Lexer} {x}, l.pos ≤ l.input.length → stringPass1 n esc l = .ret x → Gr l (ended (·.2) (·.2) x) := by
  intro n
  induction n with
  | zero => intro esc l x _ e; cases e
  | succ n ih =>
    intro esc l x h e
    unfold stringPass1 at e
    rcases e1 : l.rd with ⟨r, w, l1⟩
    obtain ⟨g1, -⟩ := rd_gr e1 h
    rw [e1] at e; dsimp only at e
    by_cases q1 : r = 34
    · rw [if_pos q1] at e; cases e; exact g1
    rw [if_neg q1] at e
    by_cases q2 : r < 32 ∧ r ≠ 9
    · rw [if_pos q2] at e; cases e; exact g1
    rw [if_neg q2] at e
    by_cases q3 : r = 92
    · rw [if_pos q3] at e
      rcases e2 : l1.rd with ⟨a, wa, k2⟩
      have g2 := g1.trans (rd_gr e2 g1.inv).1
      rw [e2] at e; dsimp only at e
      by_cases q4 : a = 117
      · rw [if_pos q4] at e
        rcases e3 : k2.rd with ⟨b, wb, k3⟩
        rcases e4 : k3.rd with ⟨c, wc, k4⟩
        rcases e5 : k4.rd with ⟨d, wd, k5⟩
        rcases e6 : k5.rd with ⟨d', wd', k6⟩
        have g3 := g2.trans (rd_gr e3 g2.inv).1
        have g4 := g3.trans (rd_gr e4 g3.inv).1
        have g5 := g4.trans (rd_gr e5 g4.inv).1
        have g6 := g5.trans (rd_gr e6 g5.inv).1
        rw [e3] at e; dsimp only at e
        rw [e4] at e; dsimp only at e
        rw [e5] at e; dsimp only at e
        rw [e6] at e; dsimp only at e
        exact g6.trans (ih _ g6.inv e)
      · rw [if_neg q4] at e; exact g2.trans (ih _ g2.inv e)
    · rw [if_neg q3] at e; exact g1.trans (ih _ g1.inv e)

theorem pass2_gr (col line : Nat) : ∀ (n : Nat) (acc : Bytes) {l l' : Lexer} {t : Token}, l.pos ≤ l.input.length →
    stringPass2 col line n acc l = .ret (t, l') → Gr l l' := by
  intro n
  induction n with
  | zero => intro acc l l' t _ e; cases e
  | succ n ih =>
    intro acc l l' t h e
    unfold stringPass2 at e
    rcases e1 : l.rd with ⟨r, w, l1⟩
    obtain ⟨g1, -⟩ := rd_gr e1 h
    rw [e1] at e; dsimp only at e
    by_cases q1 : r = 34 ∨ r = 0
    · rw [if_pos q1] at e; cases e; exact g1
    rw [if_neg q1] at e
    by_cases q3 : r = 92
    · rw [if_pos q3] at e
      have g2 := g1.trans (escapedChar_gr g1.inv)
      rcases hec : escapedChar l1 with ⟨y, l2⟩
      rw [hec] at e g2
      cases y with
      | error m => cases e; exact g2
      | ok x => exact g2.trans (ih _ g2.inv e)
    · rw [if_neg q3] at e; exact g1.trans (ih _ g1.inv e)

theorem scanString_gr {l l' : Lexer} {t : Token} (h : l.pos ≤ l.input.length) (e : scanString l = .ret (t, l')) : Gr l l' := by
  unfold scanString at e
  cases h1 : stringPass1 l.fuel false l with
  | panic => rw [h1] at e; cases e
  | oof => rw [h1] at e; cases e
  | ret x =>
    have g := pass1_gr _ _ h h1
    rw [h1] at e
    cases x with
    | error y => obtain ⟨r, l1⟩ := y; cases e; exact g
    | ok y =>
      obtain ⟨b, l1⟩ := y
      dsimp only at e
      cases b with
      | true => simp only [if_true] at e; exact pass2_gr _ _ _ _ h e
      | false =>
        simp only [Bool.false_eq_true, if_false] at e
        cases hs : slice l1.input l.pos (l1.pos - 1) with
        | none => rw [hs] at e; cases e
        | some x => rw [hs] at e; cases e; exact g

theorem trip_gr {l : Lexer} (h : l.pos ≤ l.input.length) : Gr l (isTripQuotes l).2 ∧ (isTripQuotes l).2.line = l.line := by
  unfold isTripQuotes
  rcases e1 : l.rd with ⟨r1, w1, l1⟩
  obtain ⟨g1, u1, p1, n1, -, c1⟩ := rd_gr e1 h
  rcases e2 : l1.rd with ⟨r2, w2, l2⟩
  obtain ⟨g2, u2, p2, n2, -, c2⟩ := rd_gr e2 g1.inv
  dsimp only
  rw [e2]
  dsimp only
  have hA := g1.trans g2
  have hB := g1.trans u2
  by_cases q : r1 = 34 ∧ r2 = 34
  · rw [if_pos q]; exact ⟨hA, n2.trans n1⟩
  · rw [if_neg q]
    dsimp only
    have hl1 := g1.lpos; have hl2 := g2.lpos; have hb := hA.bound; have hi := hA.input
    have b1 := u1.lpos; have b2 := u2.lpos
    by_cases q1 : r1 ≠ 0 <;> by_cases q2 : r2 ≠ 0
    · rw [if_pos q1, if_pos q2]
      refine ⟨⟨hi, ?_, ?_, ?_, ?_⟩, n2.trans n1⟩
      all_goals simp [Lexer.unread] at *
      all_goals omega
    · rw [if_pos q1, if_neg q2]; exact ⟨hB, n2.trans n1⟩
    · rw [if_neg q1, if_pos q2]
      refine ⟨⟨hi, ?_, ?_, ?_, ?_⟩, n2.trans n1⟩
      all_goals simp [Lexer.unread] at *
      all_goals omega
    · rw [if_neg q1, if_neg q2]; exact ⟨hA, n2.trans n1⟩

/-- As `Gr`, with the line kept. -/
def GrL (l l' : Lexer) : Prop := Gr l l' ∧ l'.line = l.line

theorem GrL.trans {a b c : Lexer} (h1 : GrL a b) (h2 : GrL b c) : GrL a c := ⟨h1.1.trans h2.1, h2.2.trans h1.2⟩

theorem block1_gr : ∀ (n : Nat) (c b : Bool) {l : Lexer} {x}, l.pos ≤ l.input.length → blockPass1 n c b l = .ret x → GrL l (ended (·.2) (·.2.2) x) := by
  intro n
  induction n with
  | zero => intro c b l x _ e; cases e
  | succ n ih =>
    intro c b l x h e
    unfold blockPass1 at e
    rcases e1 : l.rd with ⟨r, w, l1⟩
    obtain ⟨g1, -, -, n1, -⟩ := rd_gr e1 h
    have g1 : GrL l l1 := ⟨g1, n1⟩
    rw [e1] at e; dsimp only at e
    by_cases q1 : r = 92
    · rw [if_pos q1] at e
      rcases e2 : l1.rd with ⟨r2, w2, l2⟩
      obtain ⟨g2, -, -, n2, -⟩ := rd_gr e2 g1.1.inv
      have g2 := g1.trans ⟨g2, n2⟩
      rw [e2] at e; dsimp only at e
      by_cases q2 : r2 = 34
      · rw [if_pos q2] at e
        have g3 := g2.trans (trip_gr g2.1.inv)
        exact g3.trans (ih _ _ g3.1.inv e)
      · rw [if_neg q2] at e; exact g2.trans (ih _ _ g2.1.inv e)
    rw [if_neg q1] at e
    by_cases q2 : r = 13
    · rw [if_pos q2] at e; exact g1.trans (ih _ _ g1.1.inv e)
    rw [if_neg q2] at e
    by_cases q3 : r = 0
    · rw [if_pos q3] at e; cases e; exact g1
    rw [if_neg q3] at e
    by_cases q4 : r < 32 ∧ r ≠ 9 ∧ r ≠ 10 ∧ r ≠ 13
    · rw [if_pos q4] at e; cases e; exact g1
    rw [if_neg q4] at e
    by_cases q5 : r = 34
    · rw [if_pos q5] at e
      have g3 := g1.trans (trip_gr g1.1.inv)
      by_cases q6 : (isTripQuotes l1).1 = true
      · rw [if_pos q6] at e; cases e; exact g3
      · rw [if_neg q6] at e; exact g3.trans (ih _ _ g3.1.inv e)
    · rw [if_neg q5] at e; exact g1.trans (ih _ _ g1.1.inv e)

theorem count_rune (r : Nat) : (encodeRune r).count 10 ≤ 1 := by
  unfold encodeRune
  split
  · by_cases h : r % 256 = 10 <;> simp [List.count_cons, h]
  split
  · simp only [List.count_cons, List.count_nil]
    have h1 : ¬ (0x80 ||| (r % 256 &&& 0x3F)) = 10 := by
      intro hh
      have := Nat.left_le_or (n := 0x80) (m := r % 256 &&& 0x3F)
      omega
    have h2 : ¬ (0xC0 ||| (r >>> 6) % 256) = 10 := by
      intro hh
      have := Nat.left_le_or (n := 0xC0) (m := (r >>> 6) % 256)
      omega
    simp [h1, h2]
  · have hA : ∀ x, ¬ (0x80 ||| x) = 10 := by
      intro x hh
      have := Nat.left_le_or (n := 0x80) (m := x)
      omega
    have hB : ∀ x, ¬ (0xE0 ||| x) = 10 := by
      intro x hh
      have := Nat.left_le_or (n := 0xE0) (m := x)
      omega
    have hC : ∀ x, ¬ (0xF0 ||| x) = 10 := by
      intro x hh
      have := Nat.left_le_or (n := 0xF0) (m := x)
      omega
    dsimp only
    split <;> split <;> simp [List.count_cons, hA, hB, hC]

/-- Not more line breaks than bytes read get into the buffer. -/
theorem block2_gr : ∀ (n : Nat) (acc : Bytes) {l : Lexer} {x}, l.pos ≤ l.input.length → blockPass2 n acc l = .ret x → GrL l (ended (·.2) (·.2) x) ∧
    ∀ raw l', x = .ok (raw, l') → raw.count 10 + l.pos ≤ acc.count 10 + l'.pos := by
  intro n
  induction n with
  | zero => intro acc l x _ e; cases e
  | succ n ih =>
    intro acc l x h e
    unfold blockPass2 at e
    rcases e1 : l.rd with ⟨r, w, l1⟩
    obtain ⟨g1, -, -, n1, s1, -⟩ := rd_gr e1 h
    have g1 : GrL l l1 := ⟨g1, n1⟩
    have step : ∀ {acc' k}, GrL l k → acc'.count 10 + l.pos ≤ acc.count 10 + k.pos → blockPass2 n acc' k = .ret x →
        GrL l (ended (·.2) (·.2) x) ∧ ∀ raw l', x = .ok (raw, l') → raw.count 10 + l.pos ≤ acc.count 10 + l'.pos := by
      intro acc' k gk hc ek
      obtain ⟨a, b⟩ := ih acc' gk.1.inv ek
      refine ⟨gk.trans a, fun raw l' hx => ?_⟩
      have := b raw l' hx
      omega
    rw [e1] at e; dsimp only at e
    have hr := count_rune r
    have hle := g1.1.le
    by_cases q1 : r = 10
    · rw [if_pos q1] at e
      refine step g1 ?_ e
      have := s1 (by omega)
      rw [List.count_append]; omega
    rw [if_neg q1] at e
    by_cases q2 : r = 13
    · rw [if_pos q2] at e
      have := s1 (by omega)
      cases hg : l1.input[l1.pos + 1]? with
      | none => rw [hg] at e; cases e
      | some y =>
        rw [hg] at e
        dsimp only at e
        refine step g1 ?_ e
        have := count_rune 10
        split
        · rw [List.count_append]; omega
        · omega
    rw [if_neg q2] at e
    by_cases q3 : r = 92
    · rw [if_pos q3] at e
      have hs := s1 (by omega)
      rcases e2 : l1.rd with ⟨r2, w2, l2⟩
      obtain ⟨g2, -, -, n2, s2, -⟩ := rd_gr e2 g1.1.inv
      have g2 := g1.trans ⟨g2, n2⟩
      rw [e2] at e; dsimp only at e
      have h92 : (encodeRune 92).count 10 = 0 := by decide
      by_cases q4 : r2 = 34
      · rw [if_pos q4] at e
        have g3 := g2.trans (trip_gr g2.1.inv)
        have hp := (trip_gr g2.1.inv).1.le
        by_cases q6 : (isTripQuotes l2).1 = true
        · rw [if_pos q6] at e
          refine step g3 ?_ e
          have : (b!"\"\"\"" : Bytes).count 10 = 0 := by decide
          have := g3.1.le
          rw [List.count_append]; omega
        · rw [if_neg q6] at e
          refine step g3 ?_ e
          have : (encodeRune r2).count 10 = 0 := by rw [q4]; decide
          have := g3.1.le
          rw [List.count_append, List.count_append]; omega
      · rw [if_neg q4] at e
        refine step g2 ?_ e
        have := count_rune r2
        have hge : l1.pos ≤ l2.pos := by
          have := (rd_gr e2 g1.1.inv).1.le; exact this
        rw [List.count_append, List.count_append]; omega
    rw [if_neg q3] at e
    by_cases q4 : r = 0
    · rw [if_pos q4] at e; cases e; exact ⟨g1, fun _ _ hx => by cases hx⟩
    rw [if_neg q4] at e
    have hs := s1 q4
    by_cases q5 : r = 34
    · rw [if_pos q5] at e
      have g3 := g1.trans (trip_gr g1.1.inv)
      have hp := g3.1.le
      by_cases q6 : (isTripQuotes l1).1 = true
      · rw [if_pos q6] at e; cases e
        refine ⟨g3, ?_⟩
        rintro raw l' hx
        cases hx
        omega
      · rw [if_neg q6] at e
        refine step g3 ?_ e
        have : (encodeRune r).count 10 = 0 := by rw [q5]; decide
        rw [List.count_append]; omega
    rw [if_neg q5] at e
    by_cases q6 : r < 32 ∧ r ≠ 9 ∧ r ≠ 10 ∧ r ≠ 13
    · rw [if_pos q6] at e; cases e; exact ⟨g1, fun _ _ hx => by cases hx⟩
    · rw [if_neg q6] at e
      refine step g1 ?_ e
      rw [List.count_append]; omega

theorem splitOn_count (sep : Nat) : ∀ b : Bytes, (splitOn sep b).length = b.count sep + 1 := by
  intro b
  induction b with
  | nil => rfl
  | cons x t ih =>
    unfold splitOn
    by_cases h : x = sep
    · rw [if_pos h]; simp [ih, List.count_cons, h]
    · rw [if_neg h]
      have hx : (x == sep) = false := by simp [h]
      cases hs : splitOn sep t with
      | nil => rw [hs] at ih; simp at ih
      | cons a r => rw [hs] at ih; simp [List.count_cons, hx] at ih ⊢; exact ih

theorem scanBlock_gr {l l' : Lexer} {t : Token} (h : l.pos ≤ l.input.length) (e : scanBlockString l = .ret (t, l')) : Gr l l' := by
  unfold scanBlockString at e
  dsimp only at e
  have grow : ∀ {k : Lexer} {raw : Bytes}, GrL l k → raw.count 10 + l.pos ≤ k.pos →
      Gr l { k with line := k.line + ((blockStringLiteral raw).2 - 1) } := by
    intro k raw gk hc
    refine ⟨gk.1.input, gk.1.le, gk.1.bound, ?_, gk.1.lpos⟩
    show k.line + ((blockStringLiteral raw).2 - 1) + l.pos ≤ l.line + k.pos
    have : (blockStringLiteral raw).2 = raw.count 10 + 1 := splitOn_count 10 raw
    rw [this, gk.2]; omega
  cases h1 : blockPass1 l.fuel false false l with
  | panic => rw [h1] at e; cases e
  | oof => rw [h1] at e; cases e
  | ret x =>
    have g := block1_gr _ _ _ h h1
    rw [h1] at e
    cases x with
    | error y => obtain ⟨r, l1⟩ := y; cases e; exact g.1
    | ok y =>
      obtain ⟨c, b, l1⟩ := y
      dsimp only at e
      by_cases q : (!c && !b) = true
      · rw [if_pos q] at e
        cases hs : slice l1.input l.pos (l1.pos - 3) with
        | none => rw [hs] at e; cases e
        | some raw =>
          rw [hs] at e; cases e
          refine grow g ?_
          have hlen : raw.length ≤ l1.pos - l.pos := by
            unfold slice at hs
            split at hs
            · cases hs; rw [List.length_take]; omega
            · cases hs
          have := List.count_le_length (a := 10) (l := raw)
          have := g.1.le
          simp only [ended] at this
          omega
      · rw [if_neg q] at e
        cases hs : blockPass2 l.fuel [] l with
        | panic => rw [hs] at e; cases e
        | oof => rw [hs] at e; cases e
        | ret x =>
          obtain ⟨g2, hc⟩ := block2_gr _ _ h hs
          rw [hs] at e
          cases x with
          | error y => obtain ⟨m, l2⟩ := y; cases e; exact g2.1
          | ok y =>
            obtain ⟨raw, l2⟩ := y
            cases e
            exact grow g2 (by have := hc raw l2 rfl; simpa using this)

theorem scanF_gr : ∀ (n : Nat) {l l' : Lexer} {t : Token}, l.pos ≤ l.input.length → scanF n l = .ret (t, l') → Gr l l' := by
  intro n
  induction n with
  | zero => intro l l' t _ e; cases e
  | succ n ih =>
    intro l l' t h e
    unfold scanF at e
    cases hr : readNextSignificant l.fuel false l with
    | panic => rw [hr] at e; cases e
    | oof => rw [hr] at e; cases e
    | ret x =>
      obtain ⟨r, w, l0⟩ := x
      have g0 := rns_gr _ _ h hr
      rw [hr] at e
      dsimp only at e
      by_cases q1 : isNameStart r = true
      · rw [if_pos q1] at e; exact g0.trans (scanName_gr g0.inv e)
      rw [if_neg q1] at e
      by_cases q2 : isPunct r = true
      · rw [if_pos q2] at e; exact g0.trans (scanPunct_gr g0.inv e)
      rw [if_neg q2] at e
      by_cases q3 : isDigit r = true ∨ r = 45
      · rw [if_pos q3] at e; exact g0.trans (scanNumber_gr g0.inv e)
      rw [if_neg q3] at e
      by_cases q4 : r = 35
      · rw [if_pos q4] at e
        cases hs : skipComment l0.fuel false l0 with
        | panic => rw [hs] at e; cases e
        | oof => rw [hs] at e; cases e
        | ret l1 =>
          rw [hs] at e
          have g1 := g0.trans (skipComment_gr _ _ g0.inv hs)
          exact g1.trans (ih g1.inv e)
      rw [if_neg q4] at e
      by_cases q5 : r = 34
      · rw [if_pos q5] at e
        rcases e1 : l0.rd with ⟨r1, w1, l1⟩
        obtain ⟨g1, u1, p1, n1, -, c1⟩ := rd_gr e1 g0.inv
        rcases e2 : l1.rd with ⟨r2, w2, l2⟩
        obtain ⟨g2, u2, p2, n2, -, c2⟩ := rd_gr e2 g1.inv
        rw [e1] at e; dsimp only at e
        rw [e2] at e; dsimp only at e
        by_cases q6 : r1 = 34 ∧ r2 = 34
        · rw [if_pos q6] at e
          have g3 := g0.trans (g1.trans g2)
          exact g3.trans (scanBlock_gr g3.inv e)
        · rw [if_neg q6] at e
          have hA := g1.trans g2
          have gg : Gr l0 ((l2.unread w2).unread w1) := by
            have b1 := u1.lpos; have b2 := u2.lpos; have hl1 := g1.lpos; have hl2 := g2.lpos
            have hi := hA.input; have hb := hA.bound
            refine ⟨hi, ?_, ?_, ?_, ?_⟩
            all_goals simp [Lexer.unread] at *
            all_goals omega
          have g3 := g0.trans gg
          exact g3.trans (scanString_gr g3.inv e)
      rw [if_neg q5] at e
      by_cases q6 : r = 0
      · rw [if_pos q6] at e; cases e; exact g0
      · rw [if_neg q6] at e; cases e; exact g0

end GQL

/-
The lexer on a text that ends with a line break, beside the lexer on the same text with a NUL byte
and more bytes after it: EOF and Illegal tokens (for C05).
-/
import Verif.Proofs.LexPrefixStr
import Verif.Proofs.LexEof

namespace GQL

/-- The outcome is a token of the kind. -/
def Gives (k : TokenKind) (o : Out (Token × Lexer)) : Prop := ∃ t l, o = .ret (t, l) ∧ t.kind = k

theorem rns_nul (R : Bytes) : ∀ (n m : Nat) (cr : Bool) {l l0 : Lexer} {w : Nat}, n ≤ m → Lf l →
    readNextSignificant n cr l = .ret (0, w, l0) →
    ∃ w' l0', readNextSignificant m cr (l.put (0 :: R)) = .ret (0, w', l0') ∧ l0'.line = l0.line := by
  intro n
  induction n with
  | zero => intro m cr l l0 w _ _ e; cases e
  | succ n ih =>
    intro m cr l l0 w hm hl e
    obtain ⟨m, rfl⟩ : ∃ k, m = k + 1 := ⟨m - 1, by omega⟩
    have hm' : n ≤ m := by omega
    unfold readNextSignificant at e ⊢
    rcases Nat.lt_or_ge l.pos l.input.length with hp | hp
    · obtain ⟨r1, w1, l1, e1, e2, hl1, hi, hp1, hw, h10⟩ := rd_put (0 :: R) hl hp
      rw [e1] at e; rw [e2]
      dsimp only at e ⊢
      have up : ∀ ln lp, Lf { l1 with line := ln, lpos := lp } := fun ln lp => ⟨hl1.le, hl1.lf⟩
      by_cases q1 : r1 = 13
      · rw [if_pos q1] at e ⊢; exact ih m _ hm' (up _ _) e
      rw [if_neg q1] at e ⊢
      by_cases q2 : r1 = 10
      · rw [if_pos q2] at e ⊢
        by_cases q3 : cr = true
        · rw [if_pos q3] at e ⊢; exact ih m _ hm' hl1 e
        · rw [if_neg q3] at e ⊢; exact ih m _ hm' (up _ _) e
      rw [if_neg q2] at e ⊢
      by_cases q3 : r1 = 9 ∨ r1 = 32 ∨ r1 = 44 ∨ r1 = 0xFEFF
      · rw [if_pos q3] at e ⊢; exact ih m _ hm' hl1 e
      · rw [if_neg q3] at e ⊢
        cases e
        exact ⟨_, _, rfl, rfl⟩
    · have hend : l.pos = l.input.length := by have := hl.le; omega
      rw [rd_stuck hend] at e
      have hg : (l.put (0 :: R)).input[(l.put (0 :: R)).pos]? = some 0 := by
        show (l.input ++ 0 :: R)[l.pos]? = _
        rw [hend, List.getElem?_append_right (Nat.le_refl _)]; simp
      have : (l.put (0 :: R)).rd = (0, 1, { (l.put (0 :: R)) with pos := l.pos + 1, lpos := l.lpos + 1 }) := by
        simp only [Lexer.rd, Lexer.read, hg]; rfl
      rw [this]
      simp at e ⊢
      rw [← e.2]; exact ⟨1, _, ⟨rfl, rfl⟩, rfl⟩

theorem punct_illegal (Y : Bytes) {l l' : Lexer} {t : Token} {r w : Nat} (hl : Mid l) (e : scanPunctuator l r w = .ret (t, l'))
    (hk : t.kind = .illegal) : Gives .illegal (scanPunctuator (l.put Y) r w) := by
  unfold scanPunctuator at e ⊢
  by_cases q : r = 46
  · rw [if_pos q] at e ⊢
    obtain ⟨r1, w1, l1, e1, e2, hl1, hi, hp1, hw, h10⟩ := rd_put Y hl.1 hl.2
    rw [e1] at e; rw [e2]
    dsimp only at e ⊢
    by_cases q1 : r1 = 46
    · obtain ⟨r3, w3, l3, e3, e4, hl3, hi3, hp3, hw3, h103⟩ := rd_put Y hl1 (h10 (by omega))
      rw [e3] at e; rw [e4]
      dsimp only at e ⊢
      by_cases q2 : r1 ≠ 46 ∨ r3 ≠ 46
      · rw [if_pos q2]; exact ⟨_, _, rfl, rfl⟩
      · rw [if_neg q2] at e; cases e; cases hk
    · rw [if_pos (.inl q1)]; exact ⟨_, _, rfl, rfl⟩
  · rw [if_neg q] at e
    cases hs : slice l.input (l.pos - w) l.pos with
    | none => rw [hs] at e; cases e
    | some x => rw [hs] at e; cases e; cases hk

theorem unicode_lf (a b c d : Nat) (h : a = 10 ∨ b = 10 ∨ c = 10 ∨ d = 10) : unicodeCodePointToRune a b c d = none := by
  have h0 : hexRuneToInt 10 = none := by decide
  unfold unicodeCodePointToRune
  rcases h with rfl | rfl | rfl | rfl <;> rw [h0]
  · cases hexRuneToInt a <;> rfl
  · cases hexRuneToInt a <;> cases hexRuneToInt b <;> rfl
  · cases hexRuneToInt a <;> cases hexRuneToInt b <;> cases hexRuneToInt c <;> rfl

/-- An escape before the end: read by both lexers, ending before the end; or an error for both. -/
theorem escapedChar_both_put (Y : Bytes) {l : Lexer} (hl : Mid l) :
    (∃ x l2, escapedChar l = (.ok x, l2) ∧ escapedChar (l.put Y) = (.ok x, l2.put Y) ∧ Mid l2) ∨
    ((∃ m l2, escapedChar l = (.error m, l2)) ∧ ∃ m l2, escapedChar (l.put Y) = (.error m, l2)) := by
  rcases hec : escapedChar l with ⟨y, l2⟩
  cases y with
  | ok x =>
    obtain ⟨h1, h2⟩ := escapedChar_put Y hl hec
    exact .inl ⟨x, l2, rfl, h1, h2⟩
  | error m =>
    refine .inr ⟨⟨m, l2, rfl⟩, ?_⟩
    unfold escapedChar at hec ⊢
    obtain ⟨r, w, l1, e1, e2, hl1, -, -, -, h10⟩ := rd_put Y hl.1 hl.2
    rw [e1] at hec; rw [e2]
    dsimp only at hec ⊢
    cases hs : simpleEscape r with
    | some y => rw [hs] at hec; cases hec
    | none =>
      rw [hs] at hec
      dsimp only at hec ⊢
      by_cases q : r = 117
      · rw [if_pos q] at hec ⊢
        have bad : ∀ {a b c d : Nat} {k k' : Lexer}, unicodeCodePointToRune a b c d = none →
            ∃ m l2, (match unicodeCodePointToRune a b c d with
              | some x => ((Except.ok x : Except Bytes Nat), k)
              | none => (.error (msgBadUnicode a b c d), k')) = (.error m, l2) := by
          intro a b c d k k' h; rw [h]; exact ⟨_, _, rfl⟩
        obtain ⟨a, wa, k2, a2, b2, m2, -, -, -, h2⟩ := rd_put Y hl1 (h10 (by omega))
        rw [a2] at hec; rw [b2]
        dsimp only at hec ⊢
        by_cases q2 : a = 10
        · exact bad (unicode_lf _ _ _ _ (.inl q2))
        obtain ⟨b, wb, k3, a3, b3, m3, -, -, -, h3⟩ := rd_put Y m2 (h2 q2)
        rw [a3] at hec; rw [b3]
        dsimp only at hec ⊢
        by_cases q3 : b = 10
        · exact bad (unicode_lf _ _ _ _ (.inr (.inl q3)))
        obtain ⟨c, wc, k4, a4, b4, m4, -, -, -, h4⟩ := rd_put Y m3 (h3 q3)
        rw [a4] at hec; rw [b4]
        dsimp only at hec ⊢
        by_cases q4 : c = 10
        · exact bad (unicode_lf _ _ _ _ (.inr (.inr (.inl q4))))
        obtain ⟨d, wd, k5, a5, b5, m5, -, -, -, h5⟩ := rd_put Y m4 (h4 q4)
        rw [a5] at hec; rw [b5]
        dsimp only at hec ⊢
        refine bad ?_
        cases hu : unicodeCodePointToRune a b c d with
        | none => rfl
        | some x => rw [hu] at hec; cases hec
      · rw [if_neg q]; exact ⟨_, _, rfl⟩

theorem pass1_true {m : Nat} {l l' : Lexer} {b : Bool} : stringPass1 m true l = .ret (.ok (b, l')) → b = true := by
  induction m generalizing l with
  | zero => intro e; cases e
  | succ m ih =>
    intro e
    unfold stringPass1 at e
    rcases e1 : l.rd with ⟨r, w, l1⟩
    rw [e1] at e
    dsimp only at e
    by_cases q1 : r = 34
    · rw [if_pos q1] at e; cases e; rfl
    rw [if_neg q1] at e
    by_cases q2 : r < 32 ∧ r ≠ 9
    · rw [if_pos q2] at e; cases e
    rw [if_neg q2] at e
    by_cases q3 : r = 92
    · rw [if_pos q3] at e
      by_cases q4 : l1.rd.1 = 117
      · rw [if_pos q4] at e; exact ih e
      · rw [if_neg q4] at e; exact ih e
    · rw [if_neg q3] at e; exact ih e

/-- A string that is not closed on its line: with more bytes, the first loop fails again or the second does. -/
theorem pass1_error_put (Y : Bytes) : ∀ (n m : Nat) (esc : Bool) {l : Lexer} {y x}, Mid l → stringPass1 n esc l = .ret (.error y) →
    stringPass1 m esc (l.put Y) = .ret x → (∃ y', x = .error y') ∨ ((∃ l', x = .ok (true, l')) ∧
      ∀ col line m2 acc t l'', stringPass2 col line m2 acc (l.put Y) = .ret (t, l'') → t.kind = .illegal) := by
  intro n
  induction n with
  | zero => intro m esc l y x _ e; cases e
  | succ n ih =>
    intro m esc l y x hl e e'
    cases m with
    | zero => cases e'
    | succ m =>
    cases x with
    | error y' => exact .inl ⟨y', rfl⟩
    | ok bl =>
    obtain ⟨b, lf⟩ := bl
    refine .inr ?_
    obtain ⟨r, w, l1, e1, e2, hl1, -, -, -, h10⟩ := rd_put Y hl.1 hl.2
    unfold stringPass1 at e e'
    rw [e1] at e; rw [e2] at e'
    dsimp only at e e'
    by_cases q1 : r = 34
    · rw [if_pos q1] at e; cases e
    rw [if_neg q1] at e e'
    by_cases q2 : r < 32 ∧ r ≠ 9
    · rw [if_pos q2] at e'; cases e'
    rw [if_neg q2] at e e'
    have q0 : ¬ (r = 34 ∨ r = 0) := by omega
    by_cases q3 : r = 92
    · rw [if_pos q3] at e e'
      have m1 : Mid l1 := ⟨hl1, h10 (by omega)⟩
      have hb : b = true := by
        by_cases q4 : (l1.put Y).rd.1 = 117
        · rw [if_pos q4] at e'; exact pass1_true e'
        · rw [if_neg q4] at e'; exact pass1_true e'
      subst hb
      refine ⟨⟨lf, rfl⟩, ?_⟩
      intro col line m2 acc t l'' e2'
      cases m2 with
      | zero => cases e2'
      | succ m2 =>
      unfold stringPass2 at e2'
      rw [e2] at e2'
      dsimp only at e2'
      rw [if_neg q0, if_pos q3] at e2'
      rcases escapedChar_both_put Y m1 with ⟨z, l2, c1, c2, c3⟩ | ⟨-, z, l2, c2⟩
      · rw [c2] at e2'
        dsimp only at e2'
        obtain ⟨r2, w2, l3, e3, d1, d2⟩ := escapedChar_pass c1
        obtain ⟨r2', w2', l3', e3', d1', d2'⟩ := escapedChar_pass c2
        have hr : r2' = r2 := by
          obtain ⟨ra, wa, la, ga, gb, -⟩ := rd_put Y m1.1 m1.2
          rw [ga] at e3; rw [gb] at e3'
          cases e3; cases e3'; rfl
        subst hr
        rw [e3] at e; rw [e3'] at e'
        dsimp only at e e'
        have key : stringPass1 n true l2 = .ret (.error y) ∧ stringPass1 m true (l2.put Y) = .ret (.ok (true, lf)) := by
          by_cases q4 : r2' = 117
          · rw [if_pos q4] at e e'
            rw [d1' q4, d1 q4]
            exact ⟨e, e'⟩
          · rw [if_neg q4] at e e'
            rw [d2' q4, d2 q4]
            exact ⟨e, e'⟩
        rcases ih m true c3 key.1 key.2 with ⟨y', hy⟩ | ⟨-, h⟩
        · cases hy
        · exact h _ _ _ _ _ _ e2'
      · rw [c2] at e2'
        cases e2'
        rfl
    · rw [if_neg q3] at e e'
      have m1 : Mid l1 := ⟨hl1, h10 (by omega)⟩
      rcases ih m esc m1 e e' with ⟨y', hy⟩ | ⟨hx, h⟩
      · cases hy
      · refine ⟨hx, ?_⟩
        intro col line m2 acc t l'' e2'
        cases m2 with
        | zero => cases e2'
        | succ m2 =>
        unfold stringPass2 at e2'
        rw [e2] at e2'
        dsimp only at e2'
        rw [if_neg q0, if_neg q3] at e2'
        exact h _ _ _ _ _ _ e2'

theorem pass2_illegal_put (Y : Bytes) (col line : Nat) : ∀ (n m : Nat) (acc : Bytes) {l l' l'' : Lexer} {t t' : Token}, Lf l →
    stringPass2 col line n acc l = .ret (t, l') → t.kind = .illegal →
    (∃ k esc x, stringPass1 k esc l = .ret (.ok x)) →
    stringPass2 col line m acc (l.put Y) = .ret (t', l'') → t'.kind = .illegal := by
  intro n
  induction n with
  | zero => intro m acc l l' l'' t t' _ e; cases e
  | succ n ih =>
    intro m acc l l' l'' t t' hl e hk hex e'
    cases m with
    | zero => cases e'
    | succ m =>
    obtain ⟨k, esc, x, hx⟩ := hex
    rcases rd_or Y hl with ⟨r, w, l1, e1, e2, hl1, h10⟩ | ⟨h, -⟩
    rotate_left
    · exact absurd hx (pass1_stuck h)
    obtain ⟨k, rfl⟩ : ∃ j, k = j + 1 := by
      cases k with
      | zero => cases hx
      | succ j => exact ⟨j, rfl⟩
    unfold stringPass1 at hx
    unfold stringPass2 at e e'
    rw [e1] at e hx; rw [e2] at e'
    dsimp only at e hx e'
    by_cases q1 : r = 34
    · rw [if_pos (.inl q1)] at e; cases e; cases hk
    rw [if_neg q1] at hx
    by_cases q2 : r < 32 ∧ r ≠ 9
    · rw [if_pos q2] at hx; cases hx
    rw [if_neg q2] at hx
    have q0 : ¬ (r = 34 ∨ r = 0) := by omega
    rw [if_neg q0] at e e'
    by_cases q3 : r = 92
    · rw [if_pos q3] at e hx e'
      rcases escapedChar_both_put Y ⟨hl1, h10 (by omega)⟩ with ⟨z, l2, c1, c2, c3⟩ | ⟨-, z, l2, c2⟩
      · rw [c1] at e; rw [c2] at e'
        dsimp only at e e'
        refine ih m _ c3.1 e hk ?_ e'
        obtain ⟨r2, w2, l3, e3, d1, d2⟩ := escapedChar_pass c1
        rw [e3] at hx
        dsimp only at hx
        by_cases q4 : r2 = 117
        · rw [if_pos q4, ← d1 q4] at hx; exact ⟨_, _, _, hx⟩
        · rw [if_neg q4, ← d2 q4] at hx; exact ⟨_, _, _, hx⟩
      · rw [c2] at e'; cases e'; rfl
    · rw [if_neg q3] at e hx e'
      exact ih m _ hl1 e hk ⟨_, _, _, hx⟩ e'

theorem string_illegal (Y : Bytes) {l l' : Lexer} {t : Token} (hl : Mid l) (e : scanString l = .ret (t, l')) (hk : t.kind = .illegal) :
    Gives .illegal (scanString (l.put Y)) := by
  have hle : (l.put Y).pos ≤ (l.put Y).input.length := by
    show l.pos ≤ (l.input ++ Y).length
    rw [List.length_append]; have := hl.2; omega
  obtain ⟨t', l'', e', -⟩ := scanString_total (l.put Y) hle
  refine ⟨t', l'', e', ?_⟩
  unfold scanString at e e'
  cases h : stringPass1 l.fuel false l with
  | panic => rw [h] at e; cases e
  | oof => rw [h] at e; cases e
  | ret x =>
    cases x with
    | error y =>
      cases h' : stringPass1 (l.put Y).fuel false (l.put Y) with
      | panic => rw [h'] at e'; cases e'
      | oof => rw [h'] at e'; cases e'
      | ret x' =>
        rcases pass1_error_put Y _ _ _ hl h h' with ⟨y', rfl⟩ | ⟨⟨l2, rfl⟩, hp⟩
        · rw [h'] at e'; cases e'; rfl
        · rw [h'] at e'
          simp only [if_true] at e'
          exact hp _ _ _ _ _ _ e'
    | ok y =>
      obtain ⟨b, l0⟩ := y
      obtain ⟨h1, h2⟩ := pass1_put Y l.fuel (l.put Y).fuel false b (fuel_put Y l) hl.1 h
      rw [h] at e; rw [h1] at e'
      dsimp only at e e'
      cases b with
      | true =>
        simp only [if_true] at e e'
        exact pass2_illegal_put Y _ _ _ _ _ hl.1 e hk ⟨_, _, _, h⟩ e'
      | false =>
        simp only [Bool.false_eq_true, if_false] at e
        cases hs : slice l0.input l.pos (l0.pos - 1) with
        | none => rw [hs] at e; cases e
        | some x => rw [hs] at e; cases e; cases hk

/-- Before a NUL byte the first loop over a block string fails. -/
theorem block1_nul {m : Nat} {c b : Bool} {l : Lexer} (h : l.input[l.pos]? = some 0) {x} : blockPass1 m c b l ≠ .ret (.ok x) := by
  intro e
  cases m with
  | zero => cases e
  | succ m =>
    have : l.rd = (0, 1, { l with pos := l.pos + 1, lpos := l.lpos + 1 }) := by
      simp only [Lexer.rd, Lexer.read, h]; rfl
    unfold blockPass1 at e
    rw [this] at e
    simp at e

theorem put_end (R : Bytes) {l : Lexer} (h : l.pos = l.input.length) : (l.put (0 :: R)).input[(l.put (0 :: R)).pos]? = some 0 := by
  show (l.input ++ 0 :: R)[l.pos]? = _
  rw [h, List.getElem?_append_right (Nat.le_refl _)]; simp

/-- Looking for two more quotes: both lexers see the same, or both end up at the end of the text. -/
theorem trip_nul (R : Bytes) {l : Lexer} (hl : Mid l) :
    (isTripQuotes (l.put (0 :: R)) = ((isTripQuotes l).1, (isTripQuotes l).2.put (0 :: R)) ∧ Lf (isTripQuotes l).2) ∨
    ((isTripQuotes (l.put (0 :: R))).1 = false ∧
      (isTripQuotes (l.put (0 :: R))).2.input[(isTripQuotes (l.put (0 :: R))).2.pos]? = some 0) := by
  rcases Nat.lt_or_ge l.rd.2.2.pos l.rd.2.2.input.length with hlt | hge
  · left
    rcases trip_put (0 :: R) hl with h | ⟨-, h⟩
    · exact h
    · -- both reads are before the end
      obtain ⟨r, w, l1, e1, e2, hl1, hi1, hp1, hw1, h10⟩ := rd_put (0 :: R) hl.1 hl.2
      rw [e1] at hlt
      obtain ⟨r2, w2, l2, e3, e4, hl2, -⟩ := rd_put (0 :: R) hl1 hlt
      unfold isTripQuotes
      rw [e1, e2]
      dsimp only
      rw [e3, e4]
      dsimp only
      by_cases q : r = 34 ∧ r2 = 34
      · simp only [if_pos q]; exact ⟨trivial, hl2⟩
      · simp only [if_neg q]
        by_cases q1 : r ≠ 0 <;> by_cases q2 : r2 ≠ 0
        · simp only [if_pos q1, if_pos q2]; exact ⟨rfl, (hl2.unread _).unread _⟩
        · simp only [if_pos q1, if_neg q2]; exact ⟨rfl, hl2.unread _⟩
        · simp only [if_neg q1, if_pos q2]; exact ⟨rfl, hl2.unread _⟩
        · simp only [if_neg q1, if_neg q2]; exact ⟨trivial, hl2⟩
  · right
    obtain ⟨r, w, l1, e1, e2, hl1, hi1, hp1, hw1, h10⟩ := rd_put (0 :: R) hl.1 hl.2
    rw [e1] at hge
    have hend : l1.pos = l1.input.length := by have := hl1.le; dsimp only at hge; omega
    have hr : r = 10 := by
      rcases Nat.decEq r 10 with q | q
      · have := h10 q; omega
      · exact q
    have hg := put_end R hend
    have e3 : (l1.put (0 :: R)).rd = (0, 1, { l1.put (0 :: R) with pos := l1.pos + 1, lpos := l1.lpos + 1 }) := by
      simp only [Lexer.rd, Lexer.read, hg]; rfl
    unfold isTripQuotes
    rw [e2]
    dsimp only
    rw [e3]
    dsimp only
    rw [if_neg (by omega)]
    dsimp only
    rw [if_neg (by decide), if_pos (by omega)]
    exact ⟨rfl, hg⟩

theorem block1_error_nul (R : Bytes) : ∀ (n m : Nat) (c b : Bool) {l : Lexer} {y}, Lf l → blockPass1 n c b l = .ret (.error y) →
    ∀ x, blockPass1 m c b (l.put (0 :: R)) ≠ .ret (.ok x) := by
  intro n
  induction n with
  | zero => intro m c b l y _ e; cases e
  | succ n ih =>
    intro m c b l y hl e x e'
    rcases rd_or (0 :: R) hl with ⟨r, w, l1, e1, e2, hl1, h10⟩ | ⟨h, -⟩
    rotate_left
    · exact block1_nul (put_end R h) e'
    cases m with
    | zero => cases e'
    | succ m =>
    unfold blockPass1 at e e'
    rw [e1] at e; rw [e2] at e'
    dsimp only at e e'
    by_cases q1 : r = 92
    · rw [if_pos q1] at e e'
      obtain ⟨r2, w2, l2, e3, e4, hl2, -, -, -, h102⟩ := rd_put (0 :: R) hl1 (h10 (by omega))
      rw [e3] at e; rw [e4] at e'
      dsimp only at e e'
      by_cases q2 : r2 = 34
      · rw [if_pos q2] at e e'
        rcases trip_nul R ⟨hl2, h102 (by omega)⟩ with ⟨g1, g2⟩ | ⟨-, g2⟩
        · rw [g1] at e'; exact ih m _ _ g2 e _ e'
        · exact block1_nul g2 e'
      · rw [if_neg q2] at e e'; exact ih m _ _ hl2 e _ e'
    rw [if_neg q1] at e e'
    by_cases q2 : r = 13
    · rw [if_pos q2] at e e'; exact ih m _ _ hl1 e _ e'
    rw [if_neg q2] at e e'
    by_cases q3 : r = 0
    · rw [if_pos q3] at e'; cases e'
    rw [if_neg q3] at e e'
    by_cases q4 : r < 32 ∧ r ≠ 9 ∧ r ≠ 10 ∧ r ≠ 13
    · rw [if_pos q4] at e'; cases e'
    rw [if_neg q4] at e e'
    by_cases q5 : r = 34
    · rw [if_pos q5] at e e'
      rcases trip_nul R ⟨hl1, h10 (by omega)⟩ with ⟨g1, g2⟩ | ⟨g1, g2⟩
      · rw [g1] at e'
        dsimp only at e'
        by_cases q6 : (isTripQuotes l1).1 = true
        · rw [if_pos q6] at e; cases e
        · rw [if_neg q6] at e e'; exact ih m _ _ g2 e _ e'
      · rw [if_neg (by rw [g1]; decide)] at e'
        exact block1_nul g2 e'
    · rw [if_neg q5] at e e'; exact ih m _ _ hl1 e _ e'

theorem block_illegal (R : Bytes) {l l' : Lexer} {t : Token} (hl : Lf l) (e : scanBlockString l = .ret (t, l')) (hk : t.kind = .illegal) :
    Gives .illegal (scanBlockString (l.put (0 :: R))) := by
  have hle : (l.put (0 :: R)).pos ≤ (l.put (0 :: R)).input.length := by
    show l.pos ≤ (l.input ++ 0 :: R).length
    rw [List.length_append]; have := hl.le; omega
  obtain ⟨t', l'', e', -⟩ := scanBlockString_total (l.put (0 :: R)) hle
  refine ⟨t', l'', e', ?_⟩
  unfold scanBlockString at e e'
  dsimp only at e e'
  cases h : blockPass1 l.fuel false false l with
  | panic => rw [h] at e; cases e
  | oof => rw [h] at e; cases e
  | ret x =>
    cases x with
    | error y =>
      cases h' : blockPass1 (l.put (0 :: R)).fuel false false (l.put (0 :: R)) with
      | panic => rw [h'] at e'; cases e'
      | oof => rw [h'] at e'; cases e'
      | ret x' =>
        cases x' with
        | ok z => exact absurd h' (block1_error_nul R _ _ _ _ hl h _)
        | error z => rw [h'] at e'; cases e'; rfl
    | ok y =>
      exfalso
      obtain ⟨c, b, l0⟩ := y
      obtain ⟨raw, h2⟩ := blockPass2_total l.fuel l.fuel false false c b [] l l0 hl.le (by unfold Lexer.fuel; omega) h
      rw [h] at e
      dsimp only at e
      by_cases q : (!c && !b) = true
      · rw [if_pos q] at e
        cases hs : slice l0.input l.pos (l0.pos - 3) with
        | none => rw [hs] at e; cases e
        | some x => rw [hs] at e; cases e; cases hk
      · rw [if_neg q, h2] at e
        cases e; cases hk

/-- EOF stays EOF (on the same line) and Illegal stays Illegal before a NUL byte. -/
theorem scanF_nul (R : Bytes) : ∀ (n m : Nat) {l l' : Lexer} {t : Token}, n ≤ m → Lf l → scanF n l = .ret (t, l') →
    (t.kind = .eof → ∃ t' l'', scanF m (l.put (0 :: R)) = .ret (t', l'') ∧ t'.kind = .eof ∧ t'.lit = [] ∧ t'.line = t.line) ∧
    (t.kind = .illegal → Gives .illegal (scanF m (l.put (0 :: R)))) := by
  intro n
  induction n with
  | zero => intro m l l' t _ _ e; cases e
  | succ n ih =>
    intro m l l' t hm hl e
    obtain ⟨m, rfl⟩ : ∃ k, m = k + 1 := ⟨m - 1, by omega⟩
    have hm' : n ≤ m := by omega
    unfold scanF at e ⊢
    cases h : readNextSignificant l.fuel false l with
    | panic => rw [h] at e; cases e
    | oof => rw [h] at e; cases e
    | ret x =>
      obtain ⟨r, w, l0⟩ := x
      rw [h] at e
      dsimp only at e
      by_cases h0 : r = 0
      · subst h0
        rw [if_neg (by decide), if_neg (by decide), if_neg (by decide), if_neg (by decide), if_neg (by decide), if_pos rfl] at e
        cases e
        obtain ⟨w', l0', h1, h2⟩ := rns_nul R l.fuel (l.put (0 :: R)).fuel false (fuel_put _ l) hl h
        rw [h1]
        dsimp only
        rw [if_neg (by decide), if_neg (by decide), if_neg (by decide), if_neg (by decide), if_neg (by decide), if_pos rfl]
        exact ⟨fun _ => ⟨_, _, rfl, rfl, rfl, h2⟩, fun hh => by cases hh⟩
      obtain ⟨h1, h2, -⟩ := rns_put (0 :: R) l.fuel (l.put (0 :: R)).fuel false (fuel_put _ l) hl h h0
      rw [h1]
      dsimp only
      by_cases q1 : isNameStart r = true
      · rw [if_pos q1] at e ⊢
        have := (scanName_put (0 :: R) h2 e).1
        refine ⟨fun hh => absurd hh (scanName_notEof l0 _ _ e), fun hh => ⟨_, _, this, hh⟩⟩
      rw [if_neg q1] at e ⊢
      by_cases q2 : isPunct r = true
      · rw [if_pos q2] at e ⊢
        exact ⟨fun hh => absurd hh (scanPunctuator_notEof l0 r w _ _ e), fun hh => punct_illegal _ h2 e hh⟩
      rw [if_neg q2] at e ⊢
      by_cases q3 : isDigit r = true ∨ r = 45
      · rw [if_pos q3] at e ⊢
        have := (scanNumber_put (0 :: R) h2 e).1
        exact ⟨fun hh => absurd hh (scanNumber_notEof l0 r _ _ e), fun hh => ⟨_, _, this, hh⟩⟩
      rw [if_neg q3] at e ⊢
      by_cases q4 : r = 35
      · rw [if_pos q4] at e ⊢
        cases hs : skipComment l0.fuel false l0 with
        | panic => rw [hs] at e; cases e
        | oof => rw [hs] at e; cases e
        | ret l1 =>
          obtain ⟨g1, g2⟩ := skipComment_put (0 :: R) l0.fuel (l0.put (0 :: R)).fuel false (fuel_put _ l0) h2 hs
          rw [hs] at e; rw [g1]
          exact ih m hm' g2 e
      rw [if_neg q4] at e ⊢
      by_cases q5 : r = 34
      · rw [if_pos q5] at e ⊢
        obtain ⟨r1, w1, l1, e1, e2, hl1, hi1, hp1, hw1, h10⟩ := rd_put (0 :: R) h2.1 h2.2
        rw [e1] at e; rw [e2]
        dsimp only at e ⊢
        rcases Nat.lt_or_ge l1.pos l1.input.length with hlt | hge
        · obtain ⟨r2, w2, l2, e3, e4, hl2, hi2, hp2, hw2, h102⟩ := rd_put (0 :: R) hl1 hlt
          rw [e3] at e; rw [e4]
          dsimp only at e ⊢
          by_cases q6 : r1 = 34 ∧ r2 = 34
          · rw [if_pos q6] at e ⊢
            exact ⟨fun hh => absurd hh (scanBlockString_notEof _ _ _ e), fun hh => block_illegal R hl2 e hh⟩
          · rw [if_neg q6] at e ⊢
            have hmid : Mid ((l2.unread w2).unread w1) := by
              refine ⟨(hl2.unread _).unread _, ?_⟩
              show l2.pos - w2 - w1 < l2.input.length
              have := hl2.le; rw [hi2]; omega
            exact ⟨fun hh => absurd hh (scanString_notEof _ _ _ e), fun hh => string_illegal _ hmid e hh⟩
        · -- the quote is followed by the last line break only
          have hend : l1.pos = l1.input.length := by have := hl1.le; omega
          rw [rd_stuck hend] at e
          have hg := put_end R hend
          have e3 : (l1.put (0 :: R)).rd = (0, 1, { l1.put (0 :: R) with pos := l1.pos + 1, lpos := l1.lpos + 1 }) := by
            simp only [Lexer.rd, Lexer.read, hg]; rfl
          rw [e3]
          dsimp only at e ⊢
          rw [if_neg (by omega)] at e ⊢
          refine ⟨fun hh => absurd hh (scanString_notEof _ _ _ e), fun _ => ?_⟩
          have hr1 : r1 = 10 := by
            rcases Nat.decEq r1 10 with q | q
            · have := h10 q; omega
            · exact q
          subst hr1
          -- the string begins at the line break
          have hA : (({ l1.put (0 :: R) with pos := l1.pos + 1, lpos := l1.lpos + 1 } : Lexer).unread 1).unread w1 = l0.put (0 :: R) := by
            have hl : l1 = { l0 with pos := l0.pos + w1, lpos := l1.lpos, line := l1.line } := by
              cases l1; cases l0; simp at hi1 hp1; simp [hi1, hp1]
            have hlp : l1.lpos = l0.lpos + 1 ∧ l1.line = l0.line := by
              rcases rd_cases l0 h2.1.le with ⟨-, -, h3⟩ | ⟨b, -, -, h3⟩ | ⟨b, -, -, -, h3⟩ | ⟨b, r', w', -, -, -, -, -, h3⟩ <;>
                (rw [h3] at e1; cases e1; all_goals first | exact ⟨rfl, rfl⟩ | omega)
            cases l0 with
            | mk i p lp ln =>
            cases l1 with
            | mk i' p' lp' ln' =>
            simp only [Lexer.unread, Lexer.put] at *
            obtain ⟨rfl, rfl⟩ := hlp
            subst hi1; subst hp1
            simp
          rw [hA]
          have hgs := rd_put (0 :: R) h2.1 h2.2
          have hle : (l0.put (0 :: R)).pos ≤ (l0.put (0 :: R)).input.length := by
            show l0.pos ≤ (l0.input ++ 0 :: R).length
            rw [List.length_append]; have := h2.1.le; omega
          obtain ⟨t', l'', e', -⟩ := scanString_total (l0.put (0 :: R)) hle
          refine ⟨t', l'', e', ?_⟩
          unfold scanString at e'
          obtain ⟨f, hf⟩ : ∃ f, (l0.put (0 :: R)).fuel = f + 1 := ⟨_, rfl⟩
          rw [hf] at e'
          unfold stringPass1 at e'
          rw [e2] at e'
          simp at e'
          rw [← e'.1]
      rw [if_neg q5] at e ⊢
      rw [if_neg h0] at e ⊢
      cases e
      exact ⟨(fun hh => by cases hh), fun _ => ⟨_, _, rfl, rfl⟩⟩

end GQL
